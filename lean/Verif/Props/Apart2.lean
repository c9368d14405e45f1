import Verif.Props.Apart
import Verif.Model.ApartUnits
import Verif.Props.AssembleExamples
import Verif.Props.Predefined

/-!
# C72 for built models

In a model built from declared settings without lateral transport, what happens in a hydro unit does not depend on the other units nor on the
sub-basin.
-/

set_option linter.unusedSectionVars false

namespace HB

open Spec HB.Wire

variable {K σ τ : Type} [Field K] [LinearOrder K] [IsStrictOrderedRing K] {inp : Input K} {m : Wire.Model K} {laws laws' : Laws K σ} {view : σ → τ}

/-- **C72 (units of a built model, sequential solvers).** Two runs of the same model, with laws (parameters, weather) that agree in unit `u` and two
initial states that agree in unit `u`: all records of the stores of the unit and of the fluxes leaving its bricks and splitters are the same. -/
theorem c72_unit (hd : Distinct inp) (h : build inp = .ok m) (hlat : ∀ u un i b o, UnitOutput inp u un i b o → o.target ≠ "lateral") (ext : ℕ → ℕ → K)
    (u : ℕ) (hL : Local (Asm.asm inp m ext) (unitPart m u) view laws laws') {law law' : SeqLaw K σ}
    (hQ : LocalSeq (Asm.asm inp m ext) (unitPart m u) view law law') {dt : K} {tick tick' : σ → σ}
    (htick : ∀ h h', view h = view h' → view (tick h) = view (tick' h')) (n : ℕ) {s t : Sys K σ} {l l' s' t'} (hst : Alike (unitPart m u) view s t)
    (h1 : runSteps (Asm.asm inp m ext) laws (.sequential law) dt tick n s = .ok (l, s'))
    (h2 : runSteps (Asm.asm inp m ext) laws' (.sequential law') dt tick' n t = .ok (l', t')) :
    List.Forall₂ (SameIn (unitPart m u)) l l' ∧ Alike (unitPart m u) view s' t' :=
  c72_run_sequential (Asm.unit_apart hd h hlat ext u) hL hQ htick n hst h1 h2

/-- **C72 (units of a built model, any solver)**, when the solver makes the same numbers of sweeps. -/
theorem c72_unit_partial (hd : Distinct inp) (h : build inp = .ok m) (hlat : ∀ u un i b o, UnitOutput inp u un i b o → o.target ≠ "lateral")
    (ext : ℕ → ℕ → K) (u : ℕ) (hL : Local (Asm.asm inp m ext) (unitPart m u) view laws laws') {sch sch' : Scheme K σ}
    (hsch : SameScheme (Asm.asm inp m ext) (unitPart m u) view sch sch') {dt : K} {tick tick' : σ → σ}
    (htick : ∀ h h', view h = view h' → view (tick h) = view (tick' h')) (n : ℕ) {s t : Sys K σ} {l l' s' t'} (hst : Alike (unitPart m u) view s t)
    (h1 : runSteps (Asm.asm inp m ext) laws sch dt tick n s = .ok (l, s'))
    (h2 : runSteps (Asm.asm inp m ext) laws' sch' dt tick' n t = .ok (l', t'))
    (h3 : runSweeps (Asm.asm inp m ext) laws sch dt tick n s = runSweeps (Asm.asm inp m ext) laws' sch' dt tick' n t) :
    List.Forall₂ (SameIn (unitPart m u)) l l' ∧ Alike (unitPart m u) view s' t' :=
  c72_run_partial (Asm.unit_apart hd h hlat ext u) hL hsch htick n hst h1 h2 h3

/-! ## Predefined models -/

theorem predefined_apart {vs : List Variant} {bas : List String} (hg : Wire.GoodModel vs bas) (hm : FromModel vs inp)
    (hr : ∀ v ∈ vs, v.base.redistribution = none) (hb : build inp = .ok m) (ext : ℕ → ℕ → K) (u : ℕ) : Apart (Asm.asm inp m ext) (unitPart m u) := by
  have hd := described hg hm (fun ⟨v, hv, hne⟩ => absurd (hr v hv) hne)
  exact Asm.unit_apart (described_distinct hd) hb (described_forward hd (noRedistribution hg hm hr)).noLateral ext u

/-- **C72 (Socont).** Without snow redistribution, every unit of a Socont model is apart, whatever the options and land covers. -/
theorem c72_socont {cs : List PyCover} (h : GoodCovers cs) {o : SocontOpts} (ho : GoodSnow o.snow) (hsoil : ∃ c ∈ cs, c.kind ≠ "glacier")
    (hice : IceMelts o.snow.melt cs) (hr : o.snow.redistribution = none) (hm : FromModel (socont o cs) inp) (hb : build inp = .ok m)
    (ext : ℕ → ℕ → K) (u : ℕ) : Apart (Asm.asm inp m ext) (unitPart m u) := by
  obtain ⟨hg, hx⟩ := socont_good h ho hsoil hice
  exact predefined_apart hg hm (fun v hv => by rw [(hx v hv).2, hr]) hb ext u

/-- **C72 (HBV-96).** -/
theorem c72_hbv {cs : List PyCover} (h : GoodCovers cs) {o : HbvOpts} (ho : GoodSnow o.snow)
    (hsoil : ∃ c ∈ cs, c.kind ≠ "lake" ∧ c.kind ≠ "glacier") (hice : IceMelts o.snow.melt cs) (hr : o.snow.redistribution = none)
    (hm : FromModel (hbv96 o cs) inp) (hb : build inp = .ok m) (ext : ℕ → ℕ → K) (u : ℕ) : Apart (Asm.asm inp m ext) (unitPart m u) := by
  obtain ⟨hg, hx⟩ := hbv_good h ho hsoil hice
  exact predefined_apart hg hm (fun v hv => by rw [(hx v hv).2, hr]) hb ext u

/-- **C72 (GR4J and GR6J).** -/
theorem c72_gr {cs : List PyCover} (h : GoodCovers cs) {o : GrOpts} (ho : GoodGr o) (hr : o.redistribution = none) (hm : FromModel (gr o cs) inp)
    (hb : build inp = .ok m) (ext : ℕ → ℕ → K) (u : ℕ) : Apart (Asm.asm inp m ext) (unitPart m u) := by
  obtain ⟨hg, hx⟩ := gr_good h ho
  exact predefined_apart hg hm (fun v hv => by rw [(hx v hv).1, hr]) hb ext u

/-! ## An example -/

namespace ApartDemo

open AsmDemo

/-- The first unit of a model with two units, with ground, glacier, snowpacks, soil and a river in the sub-basin, is apart. -/
theorem demo_apart : Apart (Asm.asm AsmDemo.inp AsmDemo.model AsmDemo.ext) (unitPart AsmDemo.model 0) :=
  Asm.unit_apart AsmDemo.distinct AsmDemo.builds AsmDemo.forward.noLateral AsmDemo.ext 0

/-- It has stores and fluxes, and so has the rest. -/
theorem demo_part : (unitPart AsmDemo.model 0).C (Asm.contId (.unitBrick 0 4) .water) ∧ ¬ (unitPart AsmDemo.model 0).C (Asm.contId (.unitBrick 1 4) .water) ∧
    (unitPart AsmDemo.model 0).F 1 ∧ ((AsmDemo.model.net.outs.filter fun f => decide (f.src = .unitBrick 1 4)).length = 2) := by
  refine ⟨⟨4, .water, rfl⟩, ?_, ?_, by decide +kernel⟩
  · exact Asm.not_in_unit (c := .unitBrick 1 4) (fun i hi => by cases hi) trivial .water
  · obtain ⟨f, hf⟩ : ∃ f, AsmDemo.model.net.outs[1]? = some f := ⟨_, List.getElem?_eq_getElem (by decide +kernel)⟩
    have : decide ((AsmDemo.model.net.outs[1]?).any fun f => decide (f.src = .unitBrick 0 0)) = true := by decide +kernel
    rw [hf] at this
    exact ⟨f, hf, .inl ⟨0, by simpa using this⟩⟩

/-- Laws that see nothing at all are local. -/
theorem demo_local : Local (Asm.asm AsmDemo.inp AsmDemo.model AsmDemo.ext) (unitPart AsmDemo.model 0) (fun h : Unit => h) AsmDemo.laws AsmDemo.laws :=
  ⟨fun _ _ _ _ _ _ _ _ _ _ _ => ⟨fun _ _ => rfl, rfl, rfl⟩, fun _ _ _ _ _ _ _ _ _ _ _ => rfl,
   fun _ _ _ _ _ _ _ _ _ _ _ => ⟨fun _ _ => rfl, rfl⟩, fun _ _ _ _ _ _ _ => ⟨rfl, rfl, rfl, rfl⟩, fun _ _ _ _ _ _ _ => ⟨rfl, rfl⟩⟩

/-- A sequential solver that empties a twentieth of each store. -/
def twentieth : SeqLaw ℚ Unit := fun _ _ c _ h _ => (fun _ => c.getD 0 / 20, fun _ => 0, h)

theorem demo_seq : LocalSeq (Asm.asm AsmDemo.inp AsmDemo.model AsmDemo.ext) (unitPart AsmDemo.model 0) (fun h : Unit => h) twentieth twentieth := by
  refine ⟨?_, fun _ _ _ _ _ _ _ _ _ _ _ _ => ⟨fun _ _ _ _ => rfl, fun _ _ => rfl, rfl⟩, fun _ _ _ _ _ _ _ _ => ⟨rfl, rfl⟩⟩
  have : ∀ b ∈ (Asm.asm AsmDemo.inp AsmDemo.model AsmDemo.ext).solver, b.conts.isEmpty = false := by decide +kernel
  intro b hb he
  have h := this b hb
  rw [he] at h
  cases h

/-- The soil of the *second* unit holds `x` instead of 5. -/
def other (x : ℚ) : Sys ℚ Unit :=
  { AsmDemo.start with ph := { AsmDemo.phys with cont := upd AsmDemo.phys.cont (Asm.contId (.unitBrick 1 4) .water) ⟨x, 0, 0, 0, none, false, false⟩ } }

theorem other_alike (x : ℚ) : Alike (unitPart AsmDemo.model 0) (fun h : Unit => h) AsmDemo.start (other x) := by
  refine ⟨⟨fun c hc => ?_, fun _ _ => rfl⟩, fun _ _ => rfl, rfl⟩
  simp only [other]
  rw [upd_ne]
  · rfl
  · rintro rfl
    exact demo_part.2.1 hc

/-- The theorem applies: the records of the first unit are the same for any number of steps. -/
example (x : ℚ) (n : ℕ) (l l' : List (Phys ℚ)) (s t : Sys ℚ Unit)
    (h1 : runSteps (Asm.asm AsmDemo.inp AsmDemo.model AsmDemo.ext) AsmDemo.laws (.sequential twentieth) 1 id n AsmDemo.start = .ok (l, s))
    (h2 : runSteps (Asm.asm AsmDemo.inp AsmDemo.model AsmDemo.ext) AsmDemo.laws (.sequential twentieth) 1 id n (other x) = .ok (l', t)) :
    List.Forall₂ (SameIn (unitPart AsmDemo.model 0)) l l' :=
  (c72_unit AsmDemo.distinct AsmDemo.builds AsmDemo.forward.noLateral AsmDemo.ext 0 demo_local demo_seq (fun _ _ h => h) n (other_alike x) h1 h2).1

/-- Both runs complete; the outflow of the first soil is the same, that of the second is not. -/
theorem demo_runs : ((runSteps (Asm.asm AsmDemo.inp AsmDemo.model AsmDemo.ext) AsmDemo.laws (.sequential twentieth) 1 id 2 AsmDemo.start).toOption.map
      fun r => r.1.map fun ph => (ph.amt 7, ph.amt 20)) = some [(3 / 16, 1 / 16), (549 / 3200, 23 / 400)] ∧
    ((runSteps (Asm.asm AsmDemo.inp AsmDemo.model AsmDemo.ext) AsmDemo.laws (.sequential twentieth) 1 id 2 (other 9)).toOption.map
      fun r => r.1.map fun ph => (ph.amt 7, ph.amt 20)) = some [(3 / 16, 9 / 80), (549 / 3200, 41 / 400)] := by
  constructor <;> decide +kernel

end ApartDemo

end HB
