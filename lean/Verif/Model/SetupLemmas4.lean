import Verif.Model.SetupLemmas3

/-!
# Lemmas on setting up a model (C73): the whole
-/

set_option linter.unusedSectionVars false

namespace HB.Setup

open HB.Names HB.Wire HB.Basin

variable {K : Type} [Field K] [LinearOrder K] [IsStrictOrderedRing K] [FloorRing K]

/-- Dates from 1900 on have positive day numbers. -/
theorem mjd_pos {a : CTime} (ha : DateText.Spec.Modern a) {x : K} (hx : toMJD a = some x) : 0 < x := by
  have h0 : Spec.DateTime ⟨1899, 12, 31, 0, 0, 0⟩ := ⟨⟨by decide, by decide, by decide, by decide⟩, by decide, by decide, by decide, by decide, by decide, by decide, by decide, by decide⟩
  have hlt : Spec.before ⟨1899, 12, 31, 0, 0, 0⟩ a := .inl (by have := ha.y0; dsimp only; omega)
  obtain ⟨z, hz, -⟩ := c42_round_trip (K := K) _ h0
  have h1 := c42_order _ a h0 ha.valid hlt z x hz hx
  have h2 : z = 15019 := by
    unfold toMJD at hz
    rw [if_pos (by decide)] at hz
    cases hz
    unfold secondsToMjd
    rw [show sysSeconds ⟨1899, 12, 31, 0, 0, 0⟩ = -2209075200 by decide]
    norm_num
  rw [h2] at h1
  linarith

/-- What `initTimer` gives for a given period. -/
theorem timer_ok {t : DateText.TimerSettings} {a b : CTime} (h : Spec.PeriodGiven t a b) :
    ∃ x y : K, toMJD a = some x ∧ toMJD b = some y ∧ DateText.initTimer t = some (x, y, Spec.stepDays t) ∧
      timerValid (x, y, (Spec.stepDays t : K)) t.timeStep = true ∧ 0 < (Spec.stepDays t : K) ∧ x ≤ y ∧ t.start ≠ "" ∧ t.stop ≠ "" := by
  obtain ⟨pa, hpa, sa, ea⟩ := h.start
  obtain ⟨pb, hpb, sb, eb⟩ := h.stop
  obtain ⟨x, y, hx, hy, h1, h2, h3, -⟩ := DateText.c60_run_period (K := K) t pa pb hpa hpb a b h.modernStart h.modernEnd sa sb ea eb
  have hi : DateText.initTimer t = some (x, y, (Spec.stepDays t : K)) := by
    have hu := h.unit
    simp only [List.mem_cons, List.not_mem_nil, or_false] at hu
    unfold Spec.stepDays
    rcases hu with hu | hu | hu
    · rw [h1 hu, if_pos hu, mul_one]
    · rw [h2 hu, hu, if_neg (by decide), if_pos rfl]; simp [div_eq_mul_inv]
    · rw [h3 hu, hu, if_neg (by decide), if_neg (by decide)]; simp [div_eq_mul_inv]
  have hle : x ≤ y := by
    rcases h.ordered with rfl | hb
    · rw [hx] at hy; cases hy; exact le_rfl
    · exact (c42_order a b h.modernStart.valid h.modernEnd.valid hb x y hx hy).le
  have hpos : 0 < (Spec.stepDays t : K) := by
    unfold Spec.stepDays
    have : (0 : K) < (t.timeStep : K) := by exact_mod_cast h.step
    refine mul_pos this ?_
    split_ifs <;> norm_num
  have hnil : DateText.parseToMJD (K := K) "" .guess = none := by
    unfold DateText.parseToMJD
    rw [show DateText.parseSeconds "" .guess = none by decide +kernel]
    rfl
  refine ⟨x, y, hx, hy, hi, ?_, hpos, hle, ?_, ?_⟩
  · unfold timerValid
    simp [mjd_pos h.modernStart hx, mjd_pos h.modernEnd hy, hle, h.step, hpos]
  · intro he
    unfold DateText.initTimer at hi
    rw [he, hnil] at hi
    cases hi
  · intro he
    unfold DateText.initTimer at hi
    rw [he, hnil] at hi
    split at hi
    · rename_i h1 h2; cases h2
    · cases hi

/-- The land covers `cs` suit the structure: its covers are among them, and none of them is called like another brick. -/
structure Suits (cs : List PyCover) (v : Wire.Variant) : Prop where
  among : ∀ c ∈ v.base.covers, c.name ∈ cs.map (·.name)
  apart : ∀ c ∈ cs, c.name ∈ (Spec.complete v).unitBricks.map (·.name) → c.name ∈ v.base.covers.map (·.name)

section
variable {vs : List Wire.Variant} {bas : List String} (hgm : GoodModel vs bas) (hne : vs ≠ []) (hw : ∀ v ∈ vs, Whole v) {o : Spec.Choices}
  (hf : ∀ v ∈ vs, Fits o v) {cs : List PyCover} (hcs : (cs.map (·.name)).Nodup) (hsuit : ∀ v ∈ vs, Suits cs v)
  {S : Settings K} (hv : S.variants = vs) (hB : Spec.GoodBasin cs S.basin)
  (ht : ∀ u ∈ S.basin.units, ∃ v ∈ vs, ∀ c ∈ u.covers, c.fraction ≠ 0 → c.name ∈ v.base.covers.map (·.name))
  (hP : ∀ u ∈ S.basin.units, Spec.PropertiesGiven o u) {loaded : List Var} (hD : Spec.DataGiven o S.basin loaded)
  {a b : CTime} (hT : Spec.PeriodGiven S.timer a b) {sc : SolverClass} (hS : S.solver ∈ Spec.solverNames sc) (rnd : K → K)
include hgm hne hw hf hcs hsuit hv hB ht hP hD hT hS

theorem setup_ok : ∃ (M : Model K) (x y : K), setup rnd S = .ok M ∧ toMJD a = some x ∧ toMJD b = some y ∧ x ≤ y ∧ 0 < M.dt ∧
    M.start = x ∧ M.stop = y ∧ M.dt = Spec.stepDays S.timer ∧ M.rows = stepCount rnd x y M.dt ∧
    M.spin = spinSteps rnd x y M.dt (S.spinupDays : K) ∧ M.solver = sc ∧ prepare M.input = .ok (M.model, M.forcings) ∧
    Spec.SetUp vs M.input ∧ Spec.AsDeclared vs S.basin M ∧ Spec.Ready M.input loaded := by
  -- the structures
  obtain ⟨ws, hws, hdesc, hwg⟩ := write_ok hgm.good
  have hwne : ws ≠ [] := by rintro rfl; exact hne hdesc.symm
  obtain ⟨first, hfirst⟩ : ∃ w, ws.head? = some w := by
    cases ws with
    | nil => exact absurd rfl hwne
    | cons w l => exact ⟨w, rfl⟩
  have hmem : ∀ w ∈ ws, w.desc ∈ vs := fun w h => by rw [← hdesc]; exact List.mem_map.2 ⟨w, h, rfl⟩
  -- the basin
  obtain ⟨bb, hbb⟩ := (c61_built S.basin).2.2 hB.links
  obtain ⟨-, hblen, hbu⟩ := c61_units S.basin hB.ids bb hbb
  -- the choice
  obtain ⟨sel, hsel, hsellen, hselk⟩ := chooseAll_spec (ws := ws)
    (Q := fun u w => w ∈ ws ∧ (∀ c ∈ u.covers, c.fraction ≠ 0 → c.name ∈ w.desc.base.covers.map (·.name)) ∧
      ∀ w' ∈ ws, (∀ c ∈ u.covers, c.fraction ≠ 0 → c.name ∈ w'.desc.base.covers.map (·.name)) →
        w.desc.base.covers.length ≤ w'.desc.base.covers.length)
    (us := S.basin.units) (bs := bb.units) hblen.symm (by
      intro u hu
      obtain ⟨w, h1, h2, h3, h4⟩ := chosen_spec hwne (fun w hw => ⟨(hwg w hw).1, (hwg w hw).2.1⟩) (hB.fraction u hu) (by
        obtain ⟨v, hv, h⟩ := ht u hu
        rw [← hdesc] at hv
        obtain ⟨w, hw, rfl⟩ := List.mem_map.1 hv
        exact ⟨w, hw, h⟩)
      exact ⟨w, h2, h1, h3, h4⟩)
  set xi := input first sel with hxi
  -- every selected unit
  have hunit : ∀ (k : ℕ) (e : Written × BUnit K), sel[k]? = some e → ∃ u : UnitDecl K, S.basin.units[k]? = some u ∧ u ∈ S.basin.units ∧
      e.1 ∈ ws ∧ (∀ c ∈ u.covers, c.fraction ≠ 0 → c.name ∈ e.1.desc.base.covers.map (·.name)) ∧
      (∀ w' ∈ ws, (∀ c ∈ u.covers, c.fraction ≠ 0 → c.name ∈ w'.desc.base.covers.map (·.name)) →
        e.1.desc.base.covers.length ≤ w'.desc.base.covers.length) ∧ e.2 = ⟨u.id, u.area, properties u,
      S.basin.laterals.filterMap fun l =>
        if l.giver = u.id then (S.basin.units.findIdx? fun v => v.id == l.receiver).map fun r => ⟨r, l.fraction, l.type⟩
        else none⟩ := by
    intro k e he
    have hk : k < S.basin.units.length := by rw [← hsellen]; exact (List.getElem?_eq_some_iff.1 he).1
    have hu : S.basin.units[k]? = some S.basin.units[k] := List.getElem?_eq_getElem hk
    have hb := hbu k _ hu
    obtain ⟨w, h1, h2, h3, h4⟩ := hselk k _ _ hu hb
    rw [he] at h1
    cases h1
    exact ⟨_, hu, List.getElem_mem hk, h2, h3, h4, rfl⟩
  have hselne : sel ≠ [] := by
    intro h
    rw [h] at hsellen
    exact hB.some_unit (List.length_eq_zero_iff.1 hsellen.symm)
  have hset : Spec.SetUp vs xi := set_up hdesc hfirst (fun w hw => (hwg w hw).2.2)
    (fun e he => by
      obtain ⟨k, hk⟩ := List.mem_iff_getElem?.1 he
      obtain ⟨u, _, _, h, _⟩ := hunit k e hk
      exact h) hselne
  have hulen : xi.base.units.length = S.basin.units.length := by
    change (sel.map fun e => unitIn e.1 e.2).length = _
    rw [List.length_map, hsellen]
  have hlat : Spec.LateralGiven xi.base := by
    intro un hun cn hcn
    obtain ⟨k, hk⟩ := List.mem_iff_getElem?.1 hun
    obtain ⟨e, he, rfl, -⟩ := input_of hk
    obtain ⟨u, _, _, _, _, _, h⟩ := hunit k e he
    change cn ∈ e.2.laterals.map _ at hcn
    rw [h] at hcn
    obtain ⟨l, hl, rfl⟩ := List.mem_map.1 hcn
    obtain ⟨ld, -, hld⟩ := List.mem_filterMap.1 hl
    split at hld
    · obtain ⟨r, hr, rfl⟩ := Option.map_eq_some_iff.1 hld
      rw [hulen]
      exact (List.findIdx?_eq_some_iff_findIdx_eq.1 hr).1
    · cases hld
  have hsurv : ∀ u un, xi.base.units[u]? = some un → Spec.Surveyed o un (xi.ext u) := by
    intro k un hk
    obtain ⟨e, he, rfl, hx⟩ := input_of hk
    obtain ⟨u, hu, hum, _, _, _, h⟩ := hunit k e he
    have hprops : e.2.props = properties u := by rw [h]
    rw [hx]
    have hp := hP u hum
    refine ⟨?_, fun hs => slope_given hprops (hp.slope hs), fun h1 h2 => ?_, fun h1 h2 => ?_⟩
    · change 0 < e.2.area
      rw [h]; exact hB.area u hum
    · obtain ⟨p, hp1, hp2, hp3⟩ := hp.aspect h1 h2
      exact ⟨p.value, aspect_given hprops hp.once hp1 hp2, hp3⟩
    · obtain ⟨p, -, -, hp3⟩ := elevation_given (w := e.1) hprops (hp.elevation h1 h2)
      rw [hp3]; exact Option.some_ne_none _
  have hser : Spec.SeriesGiven o xi loaded := by
    refine ⟨hD.precipitation, hD.pet, hD.temperature, hD.radiation, fun h1 h2 k el hk hel hlt => ?_⟩
    obtain ⟨e, he, -, hx⟩ := input_of (first := first) (sel := sel) (List.getElem?_eq_getElem (show k < (input first sel).base.units.length from hk))
    obtain ⟨u, hu, hum, _, _, _, h⟩ := hunit k e he
    have hprops : e.2.props = properties u := by rw [h]
    obtain ⟨p, hp1, hp2, hp3⟩ := elevation_given (w := e.1) hprops ((hP u hum).elevation h1 h2)
    rw [hxi, hx, hp3] at hel
    cases hel
    exact hD.extremes h1 h2 u hum p hp1 hp2 hlt
  have hready := model_ready hgm hw hf hset (fun _ => hlat) hsurv hser
  obtain ⟨m, fs, hprep, hsafe⟩ := hready
  have hdescr := described hgm hset.from (fun _ => hlat)
  have htop : badTopology xi.base m = false := topology_fine hdescr (prepare_parts hprep).1
  -- the period
  obtain ⟨x, y, hx, hy, hti, htv, hdt, hxy, hs1, hs2⟩ := timer_ok (K := K) hT
  have hsolver : solverFactory S.solver = .ok sc := ((c52_solvers S.solver).1 sc).2 hS
  have hsne : S.solver ≠ "" := by
    intro h
    rw [h] at hS
    revert hS
    cases sc <;> decide
  have hval : settingsValid S = true := by
    unfold settingsValid
    have : S.variants.isEmpty = false := by rw [hv]; simpa using hne
    simp [hsne, hs1, hs2, hT.step, this]
  -- the extents
  have hunames : ∀ u ∈ S.basin.units, (u.covers.map (·.name)).Nodup := fun u hu => by rw [hB.covers u hu]; exact hcs
  set ps := xi.base.units.map fun un => partsOf un.str with hps
  have hpslen : S.basin.units.length = ps.length := by rw [hps, List.length_map, hulen]
  have hpart : ∀ (k : ℕ) (u : UnitDecl K) (p : Basin.Parts), S.basin.units[k]? = some u → ps[k]? = some p →
      ∃ e, sel[k]? = some e ∧ e.1 ∈ ws ∧ p = partsOf (Spec.complete e.1.desc) ∧ p.covers = e.1.desc.base.covers.map (·.name) ∧
        (∀ c ∈ u.covers, c.fraction ≠ 0 → c.name ∈ p.covers) ∧
        (∀ w' ∈ ws, (∀ c ∈ u.covers, c.fraction ≠ 0 → c.name ∈ w'.desc.base.covers.map (·.name)) →
          e.1.desc.base.covers.length ≤ w'.desc.base.covers.length) ∧ e.2.area = u.area ∧ e.2.laterals = S.basin.laterals.filterMap fun l =>
        if l.giver = u.id then (S.basin.units.findIdx? fun v => v.id == l.receiver).map fun r => ⟨r, l.fraction, l.type⟩
        else none := by
    intro k u p hu hp
    rw [hps, List.getElem?_map] at hp
    obtain ⟨un, hun, rfl⟩ := Option.map_eq_some_iff.1 hp
    obtain ⟨e, he, rfl, -⟩ := input_of hun
    obtain ⟨u', hu', _, h1, h2, h3, h4⟩ := hunit k e he
    rw [hu] at hu'
    cases hu'
    have hstr : (unitIn e.1 e.2).str = Spec.complete e.1.desc := (hwg e.1 h1).2.1
    refine ⟨e, he, h1, by rw [hstr], by rw [hstr]; exact parts_covers _, ?_, h3, by rw [h4], by rw [h4]⟩
    rw [hstr, parts_covers]; exact h2
  have hnc : ¬ ∃ (k : ℕ) (u : UnitDecl K) (p : Basin.Parts), S.basin.units[k]? = some u ∧ ps[k]? = some p ∧ NotACover u p := by
    rintro ⟨k, u, p, hu, hp, c, hc, hn1, hn2⟩
    obtain ⟨e, he, h1, rfl, h3, -⟩ := hpart k u p hu hp
    have hcm : c.name ∈ cs.map (·.name) := by
      rw [← hB.covers u (List.mem_of_getElem? hu)]; exact List.mem_map.2 ⟨c, hc, rfl⟩
    obtain ⟨pc, hpc, hpn⟩ := List.mem_map.1 hcm
    have := (hsuit _ (hmem _ h1)).apart pc hpc (by rw [hpn]; exact parts_others hn2)
    rw [hpn, ← h3] at this
    exact hn1 this
  have hsubn : ∀ (e : Written × BUnit K) (u : UnitDecl K), e.1 ∈ ws → u ∈ S.basin.units →
      ∀ n ∈ e.1.desc.base.covers.map (·.name), n ∈ u.covers.map (·.name) := by
    intro e u h1 hu n hn
    obtain ⟨c, hc, rfl⟩ := List.mem_map.1 hn
    rw [hB.covers u hu]
    exact (hsuit _ (hmem _ h1)).among c hc
  have hndn : ∀ (e : Written × BUnit K), e.1 ∈ ws → (e.1.desc.base.covers.map (·.name)).Nodup := fun e h1 => coverNames_nodup (hwg e.1 h1).1.names
  obtain ⟨gs, hgs⟩ := ((c61_accepted S.basin ps hpslen true).2 hnc).2 ⟨hB.some_unit, rfl, by
    intro k u p hu hp
    obtain ⟨e, he, h1, h2, h3, h4, h5, -⟩ := hpart k u p hu hp
    have hum := List.mem_of_getElem? hu
    refine ⟨by rw [h2]; rfl, hB.area u hum, .inr ?_⟩
    rw [h3, total_declared (hunames u hum) (hndn e h1) (hsubn e u h1 hum) (by rw [← h3]; exact h4)]
    exact hB.whole u hum⟩
  obtain ⟨hglen, hg⟩ := c61_extents S.basin ps hpslen true gs hgs
  -- all together
  have hinit : initModel rnd S xi = .ok ⟨xi, m, fs, gs, x, y, Spec.stepDays S.timer,
      stepCount rnd x y (Spec.stepDays S.timer), spinSteps rnd x y (Spec.stepDays S.timer) (S.spinupDays : K), sc⟩ := by
    unfold initModel
    rw [if_pos hval, hprep]
    simp only [ofExcept, Basin.Out.bind, hti, ofOption]
    rw [if_pos htv, hsolver]
    simp only
    rw [if_neg (by rw [htop]; decide), grounds_fresh, ← hps, hgs]
  refine ⟨⟨xi, m, fs, gs, x, y, Spec.stepDays S.timer, stepCount rnd x y (Spec.stepDays S.timer),
    spinSteps rnd x y (Spec.stepDays S.timer) (S.spinupDays : K), sc⟩, x, y, ?_, hx, hy, hxy, ?_, rfl, rfl, rfl, rfl, rfl, rfl, hprep, hset, ?_, ⟨m, fs, hprep, hsafe⟩⟩
  · unfold setup
    rw [hv, hws, hbb]
    simp only [ofExcept, Basin.Out.bind, hfirst, hsel]
    exact hinit
  · exact hdt
  · refine ⟨hulen, fun k u hu => ?_⟩
    have hum := List.mem_of_getElem? hu
    have hk : k < ps.length := by rw [← hpslen]; exact (List.getElem?_eq_some_iff.1 hu).1
    obtain ⟨e, he, h1, h2, h3, h4, h5, h6, h7⟩ := hpart k u ps[k] hu (List.getElem?_eq_getElem hk)
    obtain ⟨g, hgk, g1, g2, g3, g4, g5⟩ := hg k u ps[k] hu (List.getElem?_eq_getElem hk)
    have hstr : e.1.str = Spec.complete e.1.desc := (hwg e.1 h1).2.1
    rw [h3] at g1 g2 g3 g4 g5 h4
    have hcov : ∀ c, c ∈ g.hu.covers → ∃ e ∈ u.covers, e.name = c := by
      intro c hc
      rw [g1] at hc
      exact List.mem_map.1 (hsubn e u h1 hum c hc)
    refine ⟨unitIn e.1 e.2, g, (input_get he).1, hgk, h6, ⟨e.1.desc, hmem _ h1, hstr, fun v' hv' hc => ?_⟩, ?_, ?_, ?_, ?_, ?_, hcov, ?_⟩
    · rw [← hdesc] at hv'
      obtain ⟨w', hw', rfl⟩ := List.mem_map.1 hv'
      exact h5 w' hw' hc
    · rw [show (unitIn e.1 e.2).lateral = e.2.laterals.map fun l => (l.receiver, l.fraction) from rfl, h7, List.map_filterMap]
      refine List.filterMap_congr fun l _ => ?_
      by_cases hl : l.giver = u.id
      · rw [if_pos hl, if_pos hl, Option.map_map]; rfl
      · rw [if_neg hl, if_neg hl]; rfl
    · rw [g1, show (unitIn e.1 e.2).str = Spec.complete e.1.desc from hstr]
      exact coverNames_list _
    · intro c hc h0
      rw [g1]; exact h4 c hc h0
    · intro c hc hcm
      rw [g1] at hcm
      have := declared_of (hunames u hum) hc
      refine ⟨by rw [← this]; exact g3 c.name hcm, by rw [← this]; exact g4 c.name hcm⟩
    · obtain ⟨c0, hc0⟩ := g2
      refine ⟨c0, fun c hc hcm hne => ?_⟩
      rw [g1] at hcm
      rw [hc0 c.name hcm (hne.imp_right fun hone => ?_), declared_of (hunames u hum) hc]
      rw [total_declared (hunames u hum) (hndn e h1) (hsubn e u h1 hum) h4]
      exact hone
    · refine g5 ?_ (hndn e h1) ?_ ?_
      · intro hnil
        have hsum := hB.whole u hum
        rw [← total_declared (hunames u hum) (hndn e h1) (hsubn e u h1 hum) h4, hnil] at hsum
        norm_num at hsum
      · have : (e.1.desc.base.covers.map (·.name)).length ≤ (u.covers.map (·.name)).length :=
          (List.subperm_of_subset (hndn e h1) (hsubn e u h1 hum)).length_le
        rw [hB.covers u hum, List.length_map (as := cs)] at this
        exact lt_of_le_of_lt this hB.few
      · intro n hn
        obtain ⟨c, hc, rfl⟩ := List.mem_map.1 (hsubn e u h1 hum n hn)
        rw [declared_of (hunames u hum) hc]
        rcases hB.fraction u hum c hc with h | h
        · rw [h]; exact ⟨le_rfl, zero_le_one⟩
        · have e8 : (0 : K) < 1 / 10 ^ 8 := by positivity
          exact ⟨(e8.trans h.1).le, h.2⟩

end

end HB.Setup
