import Verif.Model.Gr4jNet
import Verif.Model.PrecipSplit
import Verif.Model.Routing

/-!
# The processes of GR4J at work

The laws of the processes of the built GR4J and GR6J, each process recognised by its type, and the run of the model with them.
-/

set_option linter.unusedSectionVars false

namespace HB.Wire

open HB.Names

noncomputable section

variable {K : Type} {R : Type}

/-- The processes of the bricks of the units: unit, brick, position of the process, the process. -/
def allProcs (inp : Input K) : List (ℕ × ℕ × ℕ × Wire.Brick × Wire.Proc) :=
  inp.units.zipIdx.flatMap fun uu => uu.1.str.unitBricks.zipIdx.flatMap fun bi => bi.1.procs.zipIdx.map fun pj => (uu.2, bi.2, pj.2, bi.1, pj.1)

/-- The process with the number it has in the network. -/
def procAt (inp : Input K) (pid : ℕ) : Option (ℕ × ℕ × ℕ × Wire.Brick × Wire.Proc) :=
  (allProcs inp).find? fun x => decide (Nat.pair (Asm.compCode (.unitBrick x.1 x.2.1)) x.2.2.1 = pid)

theorem procAt_pair {inp : Input K} {u i j : ℕ} {un : UnitIn K} {b : Wire.Brick} {p : Wire.Proc} (hu : inp.units[u]? = some un)
    (hb : un.str.unitBricks[i]? = some b) (hp : b.procs[j]? = some p) :
    procAt inp (Nat.pair (Asm.compCode (.unitBrick u i)) j) = some (u, i, j, b, p) := by
  have hall : ∀ x ∈ allProcs inp, Nat.pair (Asm.compCode (.unitBrick x.1 x.2.1)) x.2.2.1 = Nat.pair (Asm.compCode (.unitBrick u i)) j →
      x = (u, i, j, b, p) := by
    intro x hx he
    obtain ⟨⟨un', u'⟩, hu', hx⟩ := List.mem_flatMap.1 hx
    obtain ⟨⟨b', i'⟩, hb', hx⟩ := List.mem_flatMap.1 hx
    obtain ⟨⟨p', j'⟩, hp', rfl⟩ := List.mem_map.1 hx
    obtain ⟨h1, rfl⟩ := Nat.pair_eq_pair.1 he
    simp only [Asm.compCode, Nat.pair_eq_pair, Nat.add_right_cancel_iff] at h1
    obtain ⟨rfl, rfl⟩ := h1
    have h1 := List.mem_zipIdx_iff_getElem?.1 hu'
    have h2 := List.mem_zipIdx_iff_getElem?.1 hb'
    have h3 := List.mem_zipIdx_iff_getElem?.1 hp'
    dsimp only at h1 h2 h3 ⊢
    rw [hu] at h1
    cases h1
    rw [hb] at h2
    cases h2
    rw [hp] at h3
    cases h3
    rfl
  have hmem : (u, i, j, b, p) ∈ allProcs inp :=
    List.mem_flatMap.2 ⟨(un, u), List.mem_zipIdx_iff_getElem?.2 hu, List.mem_flatMap.2 ⟨(b, i), List.mem_zipIdx_iff_getElem?.2 hb,
      List.mem_map.2 ⟨(p, j), List.mem_zipIdx_iff_getElem?.2 hp, rfl⟩⟩⟩
  unfold procAt
  cases hf : (allProcs inp).find? fun x => decide (Nat.pair (Asm.compCode (.unitBrick x.1 x.2.1)) x.2.2.1 = Nat.pair (Asm.compCode (.unitBrick u i)) j) with
  | none => exact absurd (List.find?_eq_none.1 hf _ hmem) (by simp)
  | some x =>
    have h1 := List.find?_some hf
    rw [hall x (List.mem_of_find?_eq_some hf) (by simpa using h1)]

/-- The type of the routing process (models/gr4j.py, models/gr6j.py:93-101). -/
def grKind (six : Bool) : String := if six then "routing:gr6j" else "routing:gr4j"

/-- What a process of this type of unit `u`, drawing from container `c`, does (ProcessInterceptionGR4J.cpp:34-39,
ProcessOutflowRest.cpp:13-41, ProcessProductionGR4J.cpp, ProcessETGR4J.cpp, ProcessRoutingGR4J.cpp:67-128, ProcessRoutingGR6J.cpp:91-153;
Process.cpp:480-487).  `kind` is the type of process that routes with `rt`.  The time step is one day. -/
def grRate (net : HB.Net ℝ) (kind : String) (rt : Router R) (E : ℕ → ℝ) (type : String) (u c : ℕ) (h : GrHid R) (ph : Phys ℝ) : (ℕ → ℝ) × ℝ × GrHid R :=
  if type = "interception:gr4j" then
    (fun _ => (interception (h.demand E u) (ph.cont c)).1, 0,
      match (interception (h.demand E u) (ph.cont c)).2 with
      | some v => { h with pet := upd h.pet u (some v) }
      | none => h)
  else if type = "outflow:rest" then (fun _ => changeRate (ph.cont c) (outflowRest false [] (ph.cont c)), 0, h)
  else if type = "production:gr4j" then (fun _ => changeRate (ph.cont c) ((productionRate (h.demand E u) (ph.cont c)).getD 0), 0, h)
  else if type = "et:gr4j" then (fun _ => changeRate (ph.cont c) ((etRate 1 (h.demand E u) (ph.cont c) .gr4j).getD 0), 0, h)
  else if type = kind then
    (fun _ => rt.rate (ph.cont c) (rt.want (h.st u) (sumIncoming net ph c)), rt.rate (ph.cont c) (rt.exch (h.st u) (sumIncoming net ph c)), h)
  else (fun _ => 0, 0, h)

/-- The laws of the model for the weather and the potential evapotranspiration of each unit. -/
def grLaws (inp : Input ℝ) (m : Wire.Model ℝ) (ext : ℕ → ℕ → ℝ) (kind : String) (rt : Router R) (weather : ℕ → ℕ → Weather) (E : ℕ → ℕ → ℝ) : Laws ℝ (GrHid R) :=
  withSplitters inp m GrHid.time (fun ty u t => splitAmounts ty (weather u t))
    { rates := fun pid h ph =>
        match procAt inp pid with
        | some (u, i, _, b, p) => grRate (Asm.asm inp m ext) kind rt (E u) p.type u (Asm.contId (.unitBrick u i) (Asm.procStore b p)) h ph
        | none => (fun _ => 0, 0, h)
      fin := fun pid h ph =>
        match procAt inp pid with
        | some (u, i, _, b, p) =>
          if p.type = kind then
            { h with st := upd h.st u (rt.next (h.st u) (sumIncoming (Asm.asm inp m ext) ph (Asm.contId (.unitBrick u i) (Asm.procStore b p)))) }
          else h
        | none => h
      split := fun _ h _ => (fun _ => 0, h) }

section
variable {six : Bool} {name type : String} {inp : Input ℝ} {m : Wire.Model ℝ} (h : IsGr six name type inp m) {ext : ℕ → ℕ → ℝ}
include h

theorem IsGr.works {rt : Router R} {weather : ℕ → ℕ → Weather} {E : ℕ → ℕ → ℝ} {u : ℕ} (hu : u < inp.units.length) :
    GrWorks (Asm.asm inp m ext) (grLaws inp m ext (grKind six) rt weather E) rt (grIds u) u (fun t => (weather u t).P * (weather u t).rcf) (E u) := by
  have hu' := List.getElem?_eq_getElem hu
  have hstr := h.units _ (List.getElem_mem hu)
  have hcl := h.clsOf
  obtain ⟨-, -, -, -, -, j5, j6⟩ := h.brick_ids hu
  have hsrc : ∀ k, (Spec.numbers m fun f => decide (f.src = .unitSplit u k)) = Asm.ids m.net (.unitSplit u k) 0 := by
    intro k
    unfold Spec.numbers Asm.ids
    congr 1
    apply List.filter_congr
    intro e he
    obtain ⟨v, un, k', -, -, hk'⟩ := h.cases (List.mem_zipIdx_iff_getElem?.1 he)
    have h7 := (List.getElem?_eq_some_iff.1 hk').1
    have h7 : k' < 7 := h7
    generalize e.1 = f at hk' ⊢
    rcases (by omega : k' = 0 ∨ k' = 1 ∨ k' = 2 ∨ k' = 3 ∨ k' = 4 ∨ k' = 5 ∨ k' = 6) with rfl | rfl | rfl | rfl | rfl | rfl | rfl
    all_goals
      simp only [grFluxes, List.getElem?_cons_zero, List.getElem?_cons_succ, Option.some.injEq] at hk'
      subst hk'
      simp
  have hs0 : splitOf inp (Nat.pair u 0) = some (u, 0, ⟨"rain", "rain", [⟨"rain_splitter", .water, false, false⟩]⟩) :=
    splitOf_pair hu' (by rw [hstr]; rfl)
  have hs1 : splitOf inp (Nat.pair u 1) = some (u, 1, ⟨"rain_splitter", "multi_fluxes", [⟨name, .water, false, false⟩]⟩) :=
    splitOf_pair hu' (by rw [hstr]; rfl)
  have hfirst : (Spec.numbers m fun f => decide (f.dst = .comp (.unitSplit u 1))) = [(grIds u).fr] := by
    unfold Spec.numbers
    rw [h.only hu' (fun e => decide (e.1.dst = .comp (.unitSplit u 1))) (by
      intro v q hv
      simp [grFluxes, hv])]
    simp [grFluxes, grIds]
  have p0 : procAt inp (grIds u).pi = some (u, 0, 0, (⟨name, type, "", [⟨"interception", "interception:gr4j", []⟩, ⟨"throughfall", "outflow:rest", [⟨"production_store", .water, true, true⟩]⟩], false⟩ : Wire.Brick),
      ⟨"interception", "interception:gr4j", []⟩) := procAt_pair (i := 0) (j := 0) hu' (by rw [hstr]; rfl) rfl
  have p1 : procAt inp (grIds u).pt = some (u, 0, 1, (⟨name, type, "", [⟨"interception", "interception:gr4j", []⟩, ⟨"throughfall", "outflow:rest", [⟨"production_store", .water, true, true⟩]⟩], false⟩ : Wire.Brick),
      ⟨"throughfall", "outflow:rest", [⟨"production_store", .water, true, true⟩]⟩) := procAt_pair (i := 0) (j := 1) hu' (by rw [hstr]; rfl) rfl
  have p2 : procAt inp (grIds u).pp = some (u, 1, 0, (⟨"production_store", "storage", "", [⟨"production", "production:gr4j", [⟨"uh_input", .water, false, false⟩]⟩, ⟨"et", "et:gr4j", []⟩], true⟩ : Wire.Brick),
      ⟨"production", "production:gr4j", [⟨"uh_input", .water, false, false⟩]⟩) := procAt_pair (i := 1) (j := 0) hu' (by rw [hstr]; rfl) rfl
  have p3 : procAt inp (grIds u).pe = some (u, 1, 1, (⟨"production_store", "storage", "", [⟨"production", "production:gr4j", [⟨"uh_input", .water, false, false⟩]⟩, ⟨"et", "et:gr4j", []⟩], true⟩ : Wire.Brick),
      ⟨"et", "et:gr4j", []⟩) := procAt_pair (i := 1) (j := 1) hu' (by rw [hstr]; rfl) rfl
  have p4 : procAt inp (grIds u).pq = some (u, 2, 0, (⟨"uh_input", "storage", "", [⟨"routing", if six then "routing:gr6j" else "routing:gr4j", [⟨"outlet", .water, false, false⟩]⟩], true⟩ : Wire.Brick),
      ⟨"routing", if six then "routing:gr6j" else "routing:gr4j", [⟨"outlet", .water, false, false⟩]⟩) := procAt_pair (i := 2) (j := 0) hu' (by rw [hstr]; rfl) rfl
  have hps : ∀ p : Wire.Proc, (p.type = "interception:gr4j" ∨ p.type = "outflow:rest") →
      Asm.procStore ⟨name, type, "", [⟨"interception", "interception:gr4j", []⟩,
        ⟨"throughfall", "outflow:rest", [⟨"production_store", .water, true, true⟩]⟩], false⟩ p = .water := by
    intro p hp
    unfold Asm.procStore
    rw [hcl]
    rcases hp with e | e <;> rw [e] <;> rfl
  have hps2 : Asm.procStore ⟨"uh_input", "storage", "", [⟨"routing", if six then "routing:gr6j" else "routing:gr4j", [⟨"outlet", .water, false, false⟩]⟩], true⟩
      ⟨"routing", if six then "routing:gr6j" else "routing:gr4j", [⟨"outlet", .water, false, false⟩]⟩ = .water := by
    cases six <;> rfl
  have hrt : (if six then "routing:gr6j" else "routing:gr4j") = grKind six := rfl
  have hk0 : "interception:gr4j" ≠ grKind six := by cases six <;> decide
  have hk1 : "outflow:rest" ≠ grKind six := by cases six <;> decide
  have hk2 : "production:gr4j" ≠ grKind six := by cases six <;> decide
  have hk3 : "et:gr4j" ≠ grKind six := by cases six <;> decide
  have hrt1 : (if six then "routing:gr6j" else "routing:gr4j") ≠ "interception:gr4j" := by cases six <;> decide
  have hrt2 : (if six then "routing:gr6j" else "routing:gr4j") ≠ "outflow:rest" := by cases six <;> decide
  have hrt3 : (if six then "routing:gr6j" else "routing:gr4j") ≠ "production:gr4j" := by cases six <;> decide
  have hrt4 : (if six then "routing:gr6j" else "routing:gr4j") ≠ "et:gr4j" := by cases six <;> decide
  constructor
  · intro hh ph
    unfold grLaws withSplitters
    dsimp only [grIds]
    rw [hs0]
    dsimp only
    rw [hsrc, j5]
    have : splitAmounts "rain" (weather u hh.time) = [splitRain (weather u hh.time).P (weather u hh.time).rcf] := by
      unfold splitAmounts
      simp
    simp [this, splitRain, grIds]
  · intro hh ph
    unfold grLaws withSplitters
    dsimp only [grIds]
    rw [hs1]
    dsimp only
    rw [hsrc, j6]
    unfold firstInput
    rw [hfirst]
    simp [grIds]
  · intro hh ph
    unfold grLaws withSplitters
    dsimp only
    rw [p0]
    dsimp only
    rw [hps _ (.inl rfl)]
    rfl
  · intro hh ph
    unfold grLaws withSplitters
    dsimp only
    rw [p1]
    dsimp only
    rw [hps _ (.inr rfl)]
    rfl
  · intro hh ph
    unfold grLaws withSplitters
    dsimp only
    rw [p2]
    rfl
  · intro hh ph
    unfold grLaws withSplitters
    dsimp only
    rw [p3]
    rfl
  · intro hh ph
    unfold grLaws withSplitters
    dsimp only
    rw [p4]
    dsimp only
    rw [hps2]
    unfold grRate
    rw [if_neg hrt1, if_neg hrt2, if_neg hrt3, if_neg hrt4, if_pos hrt]
    rfl
  · intro hh ph
    unfold grLaws withSplitters
    dsimp only
    rw [p0]
    exact if_neg hk0
  · intro hh ph
    unfold grLaws withSplitters
    dsimp only
    rw [p1]
    exact if_neg hk1
  · intro hh ph
    unfold grLaws withSplitters
    dsimp only
    rw [p2]
    exact if_neg hk2
  · intro hh ph
    unfold grLaws withSplitters
    dsimp only
    rw [p3]
    exact if_neg hk3
  · intro hh ph
    unfold grLaws withSplitters
    dsimp only
    rw [p4]
    dsimp only
    rw [if_pos hrt, hps2]
    rfl

/-- The network and the laws are those of `Model/Gr4jDays.lean`. -/
theorem IsGr.net (hext : ∀ u < inp.units.length, ext u 0 = 1) (rt : Router R) (weather : ℕ → ℕ → Weather) (E : ℕ → ℕ → ℝ) :
    GrNet (Asm.asm inp m ext) (grLaws inp m ext (grKind six) rt weather E) rt inp.units.length grIds (fun u t => (weather u t).P * (weather u t).rcf) E := by
  obtain ⟨h1, h2, h3⟩ := h.shape hext
  refine ⟨h1, h2, fun u hu => h.lay hext hu, fun u hu => h.works hu, ?_, ?_, h3⟩
  · intro u _ v _ huv f hf hf'
    simp only [GrIds.fluxes, grIds, List.mem_cons, List.not_mem_nil, or_false] at hf hf'
    omega
  · intro u _ v _ huv c hc hc'
    have : ∀ i j : ℕ, Asm.contId (.unitBrick u i) .water ≠ Asm.contId (.unitBrick v j) .water := by
      intro i j he
      have := (Asm.contId_inj (c := .unitBrick u i) (c' := .unitBrick v j) trivial trivial he).1
      simp only [Comp.unitBrick.injEq] at this
      exact huv this.1
    simp only [GrIds.conts, grIds, List.mem_cons, List.not_mem_nil, or_false] at hc hc'
    rcases hc with rfl | rfl | rfl <;> rcases hc' with e | e | e <;> exact this _ _ e

end

/-- A discrete GR4J or GR6J without snow and with one land cover, other than a glacier, has these fluxes. -/
theorem isGr_of {o : GrOpts} (hd : o.discrete = true) (hm : o.melt = none) {c : PyCover} (hk : c.kind ≠ "glacier") (hc : Spec.GoodCovers [c])
    (ho : Spec.GoodGr o) {inp : Input ℝ} (hf : Spec.FromModel (gr o [c]) inp) :
    ∃ m, IsGr o.six c.name (grType c) inp m := by
  have hg := (gr_good hc ho).1
  have hcls := gr_class hk (hc.kinds c (List.mem_singleton_self c))
  have hbas : inp.basin = grStruct o.six c.name (grType c) := by
    obtain ⟨v, a, h1, h2, h3⟩ := hf.basin
    have hv : v = ⟨grArgs o [c], grItems o c.name⟩ := by
      unfold gr at h1
      simp only [List.head?_cons, Option.some.injEq] at h1
      exact h1.symm
    rw [h3, generated (hg.good v (List.mem_of_mem_head? (by rw [h1]; rfl))) h2, hv, gr_complete hd hm]
  have hun : ∀ un ∈ inp.units, un.str = grStruct o.six c.name (grType c) := by
    intro un hun
    obtain ⟨v, hv, a, h2, h3⟩ := hf.units un hun
    have hv' : v = ⟨grArgs o [c], grItems o c.name⟩ := by
      unfold gr at hv
      exact List.mem_singleton.1 hv
    rw [h3, generated (hg.good v hv) h2, hv', gr_complete hd hm]
  obtain ⟨m, hb, hout⟩ := gr_build (grName hc) hcls hbas hun
  exact ⟨m, hb, hout, hun, hbas, hcls⟩

end

end HB.Wire
