import Verif.Model.WiringLemmas
import Verif.Props.Names
import Mathlib.Algebra.Field.Rat

/-!
# C57: building wires exactly the declared network
-/

set_option linter.unusedSectionVars false

namespace HB

open Names Wire

variable {K : Type} [Field K]

/-! ### Classes and names -/

theorem buildProcess_name {s : String} {c : Category} {r : ProcClass × Store × Bool} (h : buildProcess s c = .ok r) :
    s ∈ Spec.processNames r.1 := by
  unfold buildProcess at h
  split at h
  · rename_i p hp
    cases h
    exact (((c52_processes s).1 c p.1 p.2).1 hp).1
  · cases h
  · cases h

theorem toAtmosphere_iff {s : String} {pc : ProcClass} (h : s ∈ Spec.processNames pc) :
    toAtmosphere pc = true ↔ s ∈ Spec.atmosphereNames := by
  cases pc <;> simp only [Spec.processNames, List.mem_cons, List.not_mem_nil, or_false] at h <;>
    first
    | (subst h; decide)
    | (rcases h with h | h <;> subst h <;> decide)

theorem isLateral_iff {s : String} {pc : ProcClass} (h : s ∈ Spec.processNames pc) :
    isLateral pc = true ↔ s ∈ Spec.lateralNames := by
  cases pc <;> simp only [Spec.processNames, List.mem_cons, List.not_mem_nil, or_false] at h <;>
    first
    | (subst h; decide)
    | (rcases h with h | h <;> subst h <;> decide)

theorem linksOne_iff {s : String} {pc : ProcClass} (h : s ∈ Spec.processNames pc) :
    linksOne pc = true ↔ s ∈ Spec.infiltrationNames := by
  cases pc <;> simp only [Spec.processNames, List.mem_cons, List.not_mem_nil, or_false] at h <;>
    first
    | (subst h; decide)
    | (rcases h with h | h <;> subst h <;> decide)

theorem linksMany_iff {s : String} {pc : ProcClass} (h : s ∈ Spec.processNames pc) :
    linksMany pc = true ↔ s = "capillary:hbv" := by
  cases pc <;> simp only [Spec.processNames, List.mem_cons, List.not_mem_nil, or_false] at h <;>
    first
    | (subst h; decide)
    | (rcases h with h | h <;> subst h <;> decide)

theorem createBrick_class {b : Brick} {bb : BuiltBrick} (h : createBrick b = .ok bb) : b.type ∈ Spec.brickNames bb.cls := by
  simp only [createBrick, bind_ok] at h
  obtain ⟨c, hc, ps, hps, h⟩ := h
  cases h
  unfold ofRes at hc
  split at hc
  · rename_i c' hb
    cases hc
    exact ((c52_bricks_splitters_partial b.type).1 _).1 hb
  · cases hc
  · cases hc

theorem canHave_iff {s : String} {c : BrickClass} (h : s ∈ Spec.brickNames c) :
    canHaveFraction c = true ↔ s ∈ Spec.fractionTypes := by
  cases c <;> simp only [Spec.brickNames, List.mem_cons, List.not_mem_nil, or_false] at h <;>
    first
    | (subst h; decide)
    | (rcases h with h | h | h | h <;> subst h <;> decide)

theorem snowpack_iff {s : String} {c : BrickClass} (h : s ∈ Spec.brickNames c) : c = .snowpack ↔ s = "snowpack" := by
  cases c <;> simp only [Spec.brickNames, List.mem_cons, List.not_mem_nil, or_false] at h <;>
    first
    | (subst h; decide)
    | (rcases h with h | h | h | h <;> subst h <;> decide)

theorem attach_iff {s : String} {c : BrickClass} (h : s ∈ Spec.brickNames c) (k : Content) :
    attach (.brick c) k = true ↔ Spec.Takes s k := by
  cases c <;> simp only [Spec.brickNames, List.mem_cons, List.not_mem_nil, or_false] at h <;>
    cases k <;>
    first
    | (subst h; simp [attach, Spec.Takes])
    | (rcases h with h | h | h | h <;> subst h <;> simp [attach, Spec.Takes])

theorem createBrick_proc {b : Brick} {bb : BuiltBrick} (h : createBrick b = .ok bb) {j : ℕ} {p : Proc}
    (hj : b.procs[j]? = some p) : ∃ pc, bb.procs[j]? = some pc ∧ p.type ∈ Spec.processNames pc := by
  simp only [createBrick, bind_ok] at h
  obtain ⟨c, hc, ps, hps, h⟩ := h
  cases h
  obtain ⟨pc, hpc, hf⟩ := createAll_get hps hj
  simp only [bind_ok] at hf
  obtain ⟨r, hr, hf⟩ := hf
  cases hf
  refine ⟨_, hpc, ?_⟩
  unfold ofRes at hr
  split at hr
  · rename_i r' hb
    cases hr
    exact buildProcess_name hb
  · cases hr
  · cases hr

/-! ### Sources of the fluxes -/

theorem toBrick_outs {cls : BrickClass} {c : Comp} {f : Wire.Flux K} {n : Net K} (h : toBrick cls c f = .ok n) :
    n = ⟨[f], [(c, f)], []⟩ ∧ attach (.brick cls) f.content = true := by
  unfold toBrick at h
  split at h
  · rename_i ha
    cases h
    exact ⟨rfl, ha⟩
  · cases h

theorem wireLateral_src {bt : Built K} {un : UnitIn K} {src : Comp} {j : ℕ} {p : ProcClass} {o : Out} {n : Net K}
    (h : wireLateral bt un src j p o = .ok n) : ∀ x ∈ n.outs, x.src = src ∧ x.proc = j := by
  intro x hx
  obtain ⟨cn, _, m, hm, hx⟩ := (concatM_mem h).1 hx
  split at hm
  · cases hm
  · split at hm
    · obtain ⟨i, _, m', hm', hx⟩ := (concatM_mem hm).1 hx
      split at hm'
      · obtain ⟨rfl, _⟩ := toBrick_outs hm'
        simp only [List.mem_singleton] at hx
        subst hx
        exact ⟨rfl, rfl⟩
      · cases hm'
    · cases hm

/-! ### Targets -/

theorem brickTarget_some {inp : Input K} {bt : Built K} (hbt : BuiltOK inp bt) {u : ℕ} {un : UnitIn K} {bu : BuiltUnit}
    (hbu : UnitOK un bu) {t : String} {c : Comp} {cls : BrickClass} {out : Bool}
    (h : brickTarget bt u bu t = some (c, cls, out)) :
    ∃ b tb, Spec.BrickNamed inp u un t c b ∧ createBrick b = .ok tb ∧ tb.cls = cls ∧
      (out = true ↔ Spec.LeavesUnit (.comp c)) := by
  unfold brickTarget at h
  split at h
  · rename_i i hi
    obtain ⟨b, hb, hn⟩ := hbu.find.1 hi
    obtain ⟨tb, htb, hcb⟩ := hbu.get hb
    simp only [htb, Option.map_some, Option.some.injEq, Prod.mk.injEq] at h
    obtain ⟨rfl, rfl, rfl⟩ := h
    exact ⟨b, tb, .own hb hn, hcb, rfl, by simp [Spec.LeavesUnit]⟩
  · rename_i hi
    split at h
    · rename_i i hi'
      obtain ⟨b, hb, hn⟩ := hbt.find.1 hi'
      obtain ⟨tb, htb, hcb⟩ := hbt.get hb
      simp only [htb, Option.map_some, Option.some.injEq, Prod.mk.injEq] at h
      obtain ⟨rfl, rfl, rfl⟩ := h
      exact ⟨b, tb, .basin (hbu.find_none.1 hi) hb hn, hcb, rfl, by simp [Spec.LeavesUnit]⟩
    · cases h

theorem brickTarget_none {inp : Input K} {bt : Built K} (hbt : BuiltOK inp bt) {u : ℕ} {un : UnitIn K} {bu : BuiltUnit}
    (hbu : UnitOK un bu) {t : String} : brickTarget bt u bu t = none ↔ ∀ c b, ¬ Spec.BrickNamed inp u un t c b := by
  unfold brickTarget
  split
  · rename_i i hi
    obtain ⟨b, hb, hn⟩ := hbu.find.1 hi
    obtain ⟨tb, htb, hcb⟩ := hbu.get hb
    simp only [htb, Option.map_some, reduceCtorEq, false_iff, not_forall, not_not]
    exact ⟨_, _, .own hb hn⟩
  · rename_i hi
    have hno := hbu.find_none.1 hi
    split
    · rename_i i hi'
      obtain ⟨b, hb, hn⟩ := hbt.find.1 hi'
      obtain ⟨tb, htb, hcb⟩ := hbt.get hb
      simp only [htb, Option.map_some, reduceCtorEq, false_iff, not_forall, not_not]
      exact ⟨_, _, .basin hno hb hn⟩
    · rename_i hi'
      have hno' := hbt.find_none.1 hi'
      simp only [true_iff]
      intro c b hbn
      cases hbn with
      | own h1 h2 => exact hno _ (List.mem_of_getElem? h1) h2
      | basin _ h1 h2 => exact hno' _ (List.mem_of_getElem? h1) h2

/-- A name denotes at most one brick. -/
theorem brickNamed_unique {inp : Input K} (hd : Spec.Distinct inp) {u : ℕ} {un : UnitIn K} (hun : un ∈ inp.units)
    {t : String} {c c' : Comp} {b b' : Brick} (h : Spec.BrickNamed inp u un t c b) (h' : Spec.BrickNamed inp u un t c' b') :
    c = c' ∧ b = b' := by
  have key : ∀ (l : List Brick), (l.map (·.name)).Nodup → ∀ {i j : ℕ} {b b' : Brick}, l[i]? = some b → l[j]? = some b' →
      b.name = b'.name → i = j ∧ b = b' := by
    intro l hl i j b b' h1 h2 hn
    obtain ⟨l1, e1⟩ := List.getElem?_eq_some_iff.1 h1
    obtain ⟨l2, e2⟩ := List.getElem?_eq_some_iff.1 h2
    have : i = j := (hl.getElem_inj_iff (hi := by simpa using l1) (hj := by simpa using l2)).1 (by simp [e1, e2, hn])
    subst this
    exact ⟨rfl, by rw [h1] at h2; cases h2; rfl⟩
  cases h with
  | own h1 h2 =>
    cases h' with
    | own h3 h4 =>
      obtain ⟨rfl, rfl⟩ := key _ (hd.1 un hun).2.1 h1 h3 (h2.trans h4.symm)
      exact ⟨rfl, rfl⟩
    | basin h3 _ _ => exact (h3 _ (List.mem_of_getElem? h1) h2).elim
  | basin hno h1 h2 =>
    cases h' with
    | own h3 h4 => exact (hno _ (List.mem_of_getElem? h3) h4).elim
    | basin _ h3 h4 =>
      obtain ⟨rfl, rfl⟩ := key _ hd.2.1 h1 h3 (h2.trans h4.symm)
      exact ⟨rfl, rfl⟩

theorem splitTarget_some {inp : Input K} {bt : Built K} (hbt : BuiltOK inp bt) {u : ℕ} {un : UnitIn K} {bu : BuiltUnit}
    (hbu : UnitOK un bu) {t : String} {c : Comp} {out : Bool} (h : splitTarget bt u bu t = some (c, out)) :
    Spec.SplitNamed inp u un t c ∧ (out = true ↔ Spec.LeavesUnit (.comp c)) := by
  unfold splitTarget at h
  split at h
  · rename_i i hi
    cases h
    obtain ⟨s, hs, hn⟩ := hbu.split.1 hi
    exact ⟨.own hs hn, by simp [Spec.LeavesUnit]⟩
  · rename_i hi
    split at h
    · rename_i i hi'
      cases h
      obtain ⟨s, hs, hn⟩ := hbt.split.1 hi'
      exact ⟨.basin (hbu.split_none.1 hi) hs hn, by simp [Spec.LeavesUnit]⟩
    · cases h

theorem splitTarget_none {inp : Input K} {bt : Built K} (hbt : BuiltOK inp bt) {u : ℕ} {un : UnitIn K} {bu : BuiltUnit}
    (hbu : UnitOK un bu) {t : String} : splitTarget bt u bu t = none ↔ ∀ c, ¬ Spec.SplitNamed inp u un t c := by
  unfold splitTarget
  split
  · rename_i i hi
    obtain ⟨s, hs, hn⟩ := hbu.split.1 hi
    simp only [reduceCtorEq, false_iff, not_forall, not_not]
    exact ⟨_, .own hs hn⟩
  · rename_i hi
    have hno := hbu.split_none.1 hi
    split
    · rename_i i hi'
      obtain ⟨s, hs, hn⟩ := hbt.split.1 hi'
      simp only [reduceCtorEq, false_iff, not_forall, not_not]
      exact ⟨_, .basin hno hs hn⟩
    · rename_i hi'
      have hno' := hbt.split_none.1 hi'
      simp only [true_iff]
      intro c hbn
      cases hbn with
      | own h1 h2 => exact hno _ (List.mem_of_getElem? h1) h2
      | basin _ h1 h2 => exact hno' _ (List.mem_of_getElem? h1) h2

theorem unitFraction_spec {inp : Input K} {bt : Built K} (hbt : BuiltOK inp bt) (un : UnitIn K) {out : Bool} {d : Dest}
    (h : out = true ↔ Spec.LeavesUnit d) :
    (Spec.LeavesUnit d → unitFraction bt un out = un.area / (inp.units.map (·.area)).sum) ∧
    (¬ Spec.LeavesUnit d → unitFraction bt un out = 1) := by
  rw [← h]
  constructor
  · intro h; simp [unitFraction, h, hbt.area]
  · intro h; simp [unitFraction, h]

/-- One output of a process of a unit. -/
theorem wireUnitOut_ok {inp : Input K} {bt : Built K} (hd : Spec.Distinct inp) (hbt : BuiltOK inp bt) {u : ℕ} {un : UnitIn K}
    (hun : un ∈ inp.units) {bu : BuiltUnit}
    (hbu : UnitOK un bu) {b : Brick} {bb : BuiltBrick} (hb : createBrick b = .ok bb) {src : Comp} {j : ℕ} {p : ProcClass}
    {o : Out} {n : Net K} (ho : o.target ≠ "lateral")
    (h : wireUnitOut bt u un bu bb.cls src j p o = .ok n) :
    ∃ f, n.outs = [f] ∧ Spec.Wired inp u un b o f := by
  have hcls := canHave_iff (createBrick_class hb)
  unfold wireUnitOut at h
  split at h
  · rename_i ht
    cases h
    refine ⟨_, rfl, ⟨.outlet ht, rfl, fun _ => ?_, fun hh => (hh trivial).elim, ?_, ?_, ?_, rfl⟩⟩
    · simp [unitFraction, hbt.area]
    · simp only [hcls, iff_self_and]
      intro _ c b' hd
      cases hd
    · simp
    · exact ⟨fun _ => .inl trivial, fun _ => rfl⟩
  · rename_i ht
    split at h
    · rename_i c tcls out htar
      obtain ⟨rfl, hatt⟩ := toBrick_outs h
      obtain ⟨b', tb, hbn, hcb, rfl, hout⟩ := brickTarget_some hbt hbu htar
      obtain ⟨h1, h2⟩ := unitFraction_spec hbt un hout
      refine ⟨_, rfl, ⟨.brick ht hbn, rfl, h1, h2, ?_, ?_, ?_, rfl⟩⟩
      · have htc := canHave_iff (createBrick_class hcb)
        simp only [Bool.and_eq_true, hcls, Bool.not_eq_true', ← Bool.not_eq_true, htc]
        refine and_congr Iff.rfl ⟨fun h c' b2 hdd hbn' => ?_, fun h => h _ _ rfl hbn⟩
        obtain ⟨_, rfl⟩ := brickNamed_unique hd hun hbn hbn'
        exact h
      · exact ⟨fun h => ⟨h, _, _, rfl, hbn⟩, fun h => h.1⟩
      · simp only [Bool.or_eq_true]
        refine ⟨fun h => h.elim (fun h => .inl (hout.1 h)) (fun h => .inr (.inr h)), ?_⟩
        rintro (h | h | h)
        · exact .inl (hout.2 h)
        · exact (h _ _ hbn).elim
        · exact .inr h
    · rename_i htar
      have hnob := (brickTarget_none hbt hbu).1 htar
      split at h
      · rename_i c out hst
        cases h
        obtain ⟨hsn, hout⟩ := splitTarget_some hbt hbu hst
        obtain ⟨h1, h2⟩ := unitFraction_spec hbt un hout
        refine ⟨_, rfl, ⟨.split ht hnob hsn, rfl, h1, h2, ?_, ?_, ?_, rfl⟩⟩
        · exact ⟨fun h => ⟨hcls.1 h, fun c b _ hbn => (hnob c b hbn).elim⟩, fun h => hcls.2 h.1⟩
        · exact ⟨fun h => by simp at h, fun ⟨_, c, b, _, hbn⟩ => (hnob c b hbn).elim⟩
        · exact ⟨fun _ => .inr (.inl hnob), fun _ => rfl⟩
      · cases h

theorem wireUnitOut_src {bt : Built K} {u : ℕ} {un : UnitIn K} {bu : BuiltUnit} {cls : BrickClass} {src : Comp} {j : ℕ}
    {p : ProcClass} {o : Out} {n : Net K} (h : wireUnitOut bt u un bu cls src j p o = .ok n) :
    ∀ x ∈ n.outs, x.src = src ∧ x.proc = j := by
  intro x hx
  unfold wireUnitOut at h
  split at h
  · cases h; simp only [List.mem_singleton] at hx; subst hx; exact ⟨rfl, rfl⟩
  · split at h
    · exact wireLateral_src h x hx
    · split at h
      · obtain ⟨rfl, _⟩ := toBrick_outs h
        simp only [List.mem_singleton] at hx; subst hx; exact ⟨rfl, rfl⟩
      · split at h
        · cases h; simp only [List.mem_singleton] at hx; subst hx; exact ⟨rfl, rfl⟩
        · cases h

theorem wireUnitProc_src {bt : Built K} {u : ℕ} {un : UnitIn K} {bu : BuiltUnit} {i : ℕ} {bb : BuiltBrick} {j : ℕ} {p : Proc}
    {n : Net K} (h : wireUnitProc bt u un bu i bb j p = .ok n) : ∀ x ∈ n.outs, x.src = .unitBrick u i ∧ x.proc = j := by
  intro x hx
  unfold wireUnitProc at h
  split at h
  · cases h
  · split at h
    · cases h; simp only [List.mem_singleton] at hx; subst hx; exact ⟨rfl, rfl⟩
    · obtain ⟨o, _, m, hm, hx⟩ := (concatM_mem h).1 hx
      exact wireUnitOut_src hm x hx

theorem wireUnitSplitOut_ok {inp : Input K} {bt : Built K} (hbt : BuiltOK inp bt) {u : ℕ} {un : UnitIn K} {bu : BuiltUnit}
    (hbu : UnitOK un bu) {src : Comp} {o : Out} {n : Net K} (h : wireUnitSplitOut bt u un bu src o = .ok n) :
    ∃ f, n.outs = [f] ∧ Spec.WiredSplit inp u un o f := by
  unfold wireUnitSplitOut at h
  split at h
  · rename_i ht
    cases h
    refine ⟨_, rfl, ⟨.outlet ht, rfl, fun _ => ?_, fun hh => (hh trivial).elim, rfl, rfl, fun hh => (hh rfl).elim, rfl⟩⟩
    simp [unitFraction, hbt.area]
  · rename_i ht
    split at h
    · rename_i c tcls out htar
      obtain ⟨rfl, hatt⟩ := toBrick_outs h
      obtain ⟨b', tb, hbn, hcb, rfl, hout⟩ := brickTarget_some hbt hbu htar
      obtain ⟨h1, h2⟩ := unitFraction_spec hbt un hout
      exact ⟨_, rfl, ⟨.brick ht hbn, rfl, h1, h2, rfl, rfl, fun _ => rfl, rfl⟩⟩
    · rename_i htar
      have hnob := (brickTarget_none hbt hbu).1 htar
      split at h
      · rename_i c out hst
        cases h
        obtain ⟨hsn, hout⟩ := splitTarget_some hbt hbu hst
        obtain ⟨h1, h2⟩ := unitFraction_spec hbt un hout
        exact ⟨_, rfl, ⟨.split ht hnob hsn, rfl, h1, h2, rfl, rfl, fun _ => rfl, rfl⟩⟩
      · cases h

theorem wireUnitSplitOut_src {bt : Built K} {u : ℕ} {un : UnitIn K} {bu : BuiltUnit} {src : Comp} {o : Out} {n : Net K}
    (h : wireUnitSplitOut bt u un bu src o = .ok n) : ∀ x ∈ n.outs, x.src = src ∧ x.proc = 0 := by
  intro x hx
  unfold wireUnitSplitOut at h
  split at h
  · cases h; simp only [List.mem_singleton] at hx; subst hx; exact ⟨rfl, rfl⟩
  · split at h
    · obtain ⟨rfl, _⟩ := toBrick_outs h
      simp only [List.mem_singleton] at hx; subst hx; exact ⟨rfl, rfl⟩
    · split at h
      · cases h; simp only [List.mem_singleton] at hx; subst hx; exact ⟨rfl, rfl⟩
      · cases h

theorem wireBasinOut_ok {inp : Input K} {bt : Built K} (hbt : BuiltOK inp bt) {src : Comp} {j : ℕ} {o : Out} {n : Net K}
    (h : wireBasinOut bt src j o = .ok n) : ∃ f, n.outs = [f] ∧ f.src = src ∧ f.proc = j ∧ Spec.WiredBasin inp o f := by
  unfold wireBasinOut at h
  split at h
  · rename_i ht
    cases h
    exact ⟨_, rfl, rfl, rfl, .outlet ht, rfl, by simp, rfl, rfl, rfl⟩
  · rename_i ht
    split at h
    · rename_i i hi
      obtain ⟨b, hb, hn⟩ := hbt.find.1 hi
      obtain ⟨tb, htb, hcb⟩ := hbt.get hb
      simp only [htb] at h
      obtain ⟨rfl, hatt⟩ := toBrick_outs h
      exact ⟨_, rfl, rfl, rfl, .brick ht hb hn, rfl, by simp, rfl, rfl, rfl⟩
    · rename_i hi
      split at h
      · rename_i i hi'
        cases h
        obtain ⟨s, hs, hn⟩ := hbt.split.1 hi'
        exact ⟨_, rfl, rfl, rfl, .split ht (hbt.find_none.1 hi) hs hn, rfl, by simp, rfl, rfl, rfl⟩
      · cases h

theorem wireBasinSplitOut_ok {inp : Input K} {bt : Built K} (hbt : BuiltOK inp bt) {src : Comp} {o : Out} {n : Net K}
    (h : wireBasinSplitOut bt src o = .ok n) : ∃ f, n.outs = [f] ∧ f.src = src ∧ f.proc = 0 ∧ Spec.WiredBasin inp o f := by
  unfold wireBasinSplitOut at h
  split at h
  · rename_i ht
    cases h
    exact ⟨_, rfl, rfl, rfl, .outlet ht, rfl, by simp, rfl, rfl, rfl⟩
  · rename_i ht
    split at h
    · rename_i i hi
      obtain ⟨b, hb, hn⟩ := hbt.find.1 hi
      obtain ⟨tb, htb, hcb⟩ := hbt.get hb
      simp only [htb] at h
      obtain ⟨rfl, hatt⟩ := toBrick_outs h
      exact ⟨_, rfl, rfl, rfl, .brick ht hb hn, rfl, by simp, rfl, rfl, rfl⟩
    · rename_i hi
      split at h
      · rename_i i hi'
        cases h
        obtain ⟨s, hs, hn⟩ := hbt.split.1 hi'
        exact ⟨_, rfl, rfl, rfl, .split ht (hbt.find_none.1 hi) hs hn, rfl, by simp, rfl, rfl, rfl⟩
      · cases h

/-! ### Decomposition of the built network -/

theorem foldr_outs {l : List (List Link × Net K)} :
    (l.foldr (fun x r => x.2.append r) Net.empty).outs = l.flatMap (·.2.outs) := by
  induction l with
  | nil => rfl
  | cons a l ih => rw [List.foldr_cons, List.flatMap_cons, ← ih]; rfl

theorem flatMap_filter_one {α β : Type} {l : List α} {g : α → List β} {P : β → Bool} {k : ℕ} {a : α} (hk : l[k]? = some a)
    (hother : ∀ k' a', l[k']? = some a' → k' ≠ k → ∀ x ∈ g a', P x = false) :
    (l.flatMap g).filter P = (g a).filter P := by
  induction l generalizing k with
  | nil => simp at hk
  | cons b l ih =>
    cases k with
    | zero =>
      simp at hk
      subst hk
      have h0 : (l.flatMap g).filter P = [] := by
        rw [List.filter_eq_nil_iff]
        intro x hx
        obtain ⟨a', ha', hxa⟩ := List.mem_flatMap.1 hx
        obtain ⟨k', hk'⟩ := List.getElem?_of_mem ha'
        simp [hother (k' + 1) a' (by simpa using hk') (by omega) x hxa]
      simp [h0]
    | succ k =>
      have h0 : (g b).filter P = [] := by
        rw [List.filter_eq_nil_iff]
        intro x hx
        simp [hother 0 b (by simp) (by omega) x hx]
      simp only [List.flatMap_cons, List.filter_append, h0, List.nil_append]
      exact ih (by simpa using hk) fun k' a' h1 h2 => hother (k' + 1) a' (by simpa using h1) (by omega)

/-- The parts of a successful build. -/
structure Parts (inp : Input K) (m : Wire.Model K) (nb ns : Net K) (us : List (List Link × Net K)) : Prop where
  created : create inp = .ok m.built
  basin : wireBasinBricks inp m.built = .ok nb
  basinSplit : wireBasinSplits inp m.built = .ok ns
  units : createAll (fun ui : UnitIn K × ℕ => wireUnit m.built ui.2 ui.1) inp.units.zipIdx = .ok us
  outs : m.net.outs = (nb.outs ++ ns.outs) ++ us.flatMap (·.2.outs)
  net : m.net = (nb.append ns).append (us.foldr (fun x r => x.2.append r) .empty)

theorem build_parts {inp : Input K} {m : Wire.Model K} (h : build inp = .ok m) : ∃ nb ns us, Parts inp m nb ns us := by
  simp only [build, bind_ok] at h
  obtain ⟨bt, hbt, lb, hlb, nb, hnb, ns, hns, us, hus, h⟩ := h
  cases h
  exact ⟨nb, ns, us, hbt, hnb, hns, hus, by rw [← foldr_outs]; rfl, rfl⟩

theorem wireBasinProc_src {bt : Built K} {src : Comp} {j : ℕ} {n : Net K} {pc : ProcClass} {l : List Out}
    (h : (if toAtmosphere pc then
            .ok ⟨[⟨src, j, .atmosphere, .water, false, false, false, 1, 1⟩], [], []⟩
          else concatM (wireBasinOut bt src j) l) = (.ok n : Except Err (Net K))) :
    ∀ x ∈ n.outs, x.src = src ∧ x.proc = j := by
  intro x hx
  split at h
  · cases h; simp only [List.mem_singleton] at hx; subst hx; exact ⟨rfl, rfl⟩
  · obtain ⟨o, _, m, hm, hx⟩ := (concatM_mem h).1 hx
    unfold wireBasinOut at hm
    split at hm
    · cases hm; simp only [List.mem_singleton] at hx; subst hx; exact ⟨rfl, rfl⟩
    · split at hm
      · split at hm
        · cases hm
        · obtain ⟨rfl, _⟩ := toBrick_outs hm
          simp only [List.mem_singleton] at hx; subst hx; exact ⟨rfl, rfl⟩
      · split at hm
        · cases hm; simp only [List.mem_singleton] at hx; subst hx; exact ⟨rfl, rfl⟩
        · cases hm

theorem wireBasinSplitOut_src {bt : Built K} {src : Comp} {o : Out} {n : Net K} (h : wireBasinSplitOut bt src o = .ok n) :
    ∀ x ∈ n.outs, x.src = src ∧ x.proc = 0 := by
  intro x hx
  unfold wireBasinSplitOut at h
  split at h
  · cases h; simp only [List.mem_singleton] at hx; subst hx; exact ⟨rfl, rfl⟩
  · split at h
    · split at h
      · cases h
      · obtain ⟨rfl, _⟩ := toBrick_outs h
        simp only [List.mem_singleton] at hx; subst hx; exact ⟨rfl, rfl⟩
    · split at h
      · cases h; simp only [List.mem_singleton] at hx; subst hx; exact ⟨rfl, rfl⟩
      · cases h

theorem wireBasinBricks_src {inp : Input K} {bt : Built K} {n : Net K} (h : wireBasinBricks inp bt = .ok n) :
    ∀ x ∈ n.outs, ∃ i j b p, x.src = .basinBrick i ∧ x.proc = j ∧ inp.basin.basinBricks[i]? = some b ∧
      b.procs[j]? = some p := by
  intro x hx
  obtain ⟨⟨b, i⟩, hb, m, hm, hx⟩ := (concatM_mem h).1 hx
  split at hm
  · cases hm
  · obtain ⟨⟨p, j⟩, hp, m, hm, hx⟩ := (concatM_mem hm).1 hx
    split at hm
    · cases hm
    · obtain ⟨h1, h2⟩ := wireBasinProc_src hm x hx
      exact ⟨i, j, b, p, h1, h2, List.mem_zipIdx_iff_getElem?.1 hb, List.mem_zipIdx_iff_getElem?.1 hp⟩

theorem wireBasinSplits_src {inp : Input K} {bt : Built K} {n : Net K} (h : wireBasinSplits inp bt = .ok n) :
    ∀ x ∈ n.outs, ∃ i s, x.src = .basinSplit i ∧ x.proc = 0 ∧ inp.basin.basinSplits[i]? = some s := by
  intro x hx
  obtain ⟨⟨s, i⟩, hs, m, hm, hx⟩ := (concatM_mem h).1 hx
  obtain ⟨o, _, m, hm, hx⟩ := (concatM_mem hm).1 hx
  obtain ⟨h1, h2⟩ := wireBasinSplitOut_src hm x hx
  exact ⟨i, s, h1, h2, List.mem_zipIdx_iff_getElem?.1 hs⟩

theorem wireUnitBricks_src {bt : Built K} {u : ℕ} {un : UnitIn K} {bu : BuiltUnit} {n : Net K}
    (h : wireUnitBricks bt u un bu = .ok n) :
    ∀ x ∈ n.outs, ∃ i, x.src = .unitBrick u i ∧ ∃ b ∈ un.str.unitBricks, ∃ p, b.procs[x.proc]? = some p ∧
      bu.find b.name = some i := by
  intro x hx
  obtain ⟨b, hb, m, hm, hx⟩ := (concatM_mem h).1 hx
  split at hm
  · cases hm
  · rename_i i hi
    split at hm
    · cases hm
    · obtain ⟨⟨p, j⟩, hp, m, hm, hx⟩ := (concatM_mem hm).1 hx
      obtain ⟨h1, h2⟩ := wireUnitProc_src hm x hx
      exact ⟨i, h1, b, hb, p, by rw [h2]; exact List.mem_zipIdx_iff_getElem?.1 hp, hi⟩

theorem wireUnitSplits_src {bt : Built K} {u : ℕ} {un : UnitIn K} {bu : BuiltUnit} {n : Net K}
    (h : wireUnitSplits bt u un bu = .ok n) :
    ∀ x ∈ n.outs, ∃ i s, x.src = .unitSplit u i ∧ x.proc = 0 ∧ un.str.unitSplits[i]? = some s := by
  intro x hx
  obtain ⟨⟨s, i⟩, hs, m, hm, hx⟩ := (concatM_mem h).1 hx
  obtain ⟨o, _, m, hm, hx⟩ := (concatM_mem hm).1 hx
  obtain ⟨h1, h2⟩ := wireUnitSplitOut_src hm x hx
  exact ⟨i, s, h1, h2, List.mem_zipIdx_iff_getElem?.1 hs⟩

/-- The outputs of components of one unit come from the wiring of that unit. -/
theorem Parts.unit {inp : Input K} {m : Wire.Model K} {nb ns : Net K} {us : List (List Link × Net K)}
    (h : Parts inp m nb ns us) {u : ℕ} {un : UnitIn K} (hu : inp.units[u]? = some un) {bu : BuiltUnit}
    (hbu : m.built.units[u]? = some bu) :
    ∃ a b, wireUnitBricks m.built u un bu = .ok a ∧ wireUnitSplits m.built u un bu = .ok b ∧
      ∀ c j, ((∃ i, c = .unitBrick u i) ∨ (∃ i, c = .unitSplit u i)) →
        m.net.outputs c j = (a.outs ++ b.outs).filter fun f => decide (f.src = c ∧ f.proc = j) := by
  have hz : inp.units.zipIdx[u]? = some (un, u) := by simp [hu]
  obtain ⟨r, hr, hw⟩ := createAll_get h.units hz
  have hw' := hw
  simp only [wireUnit, hbu, bind_ok] at hw'
  obtain ⟨l, _, a, ha, b, hb, he⟩ := hw'
  refine ⟨a, b, ha, hb, fun c j hc => ?_⟩
  rw [Net.outputs, h.outs, List.filter_append]
  have h0 : (nb.outs ++ ns.outs).filter (fun f => decide (f.src = c ∧ f.proc = j)) = [] := by
    rw [List.filter_eq_nil_iff]
    intro x hx
    rcases List.mem_append.1 hx with hx | hx
    · obtain ⟨i, _, _, _, h1, _⟩ := wireBasinBricks_src h.basin x hx
      rcases hc with ⟨_, rfl⟩ | ⟨_, rfl⟩ <;> simp [h1]
    · obtain ⟨i, _, h1, _⟩ := wireBasinSplits_src h.basinSplit x hx
      rcases hc with ⟨_, rfl⟩ | ⟨_, rfl⟩ <;> simp [h1]
  rw [h0, List.nil_append, flatMap_filter_one hr]
  · cases he; rfl
  · intro k' r' hk' hne x hx
    obtain ⟨⟨un', u'⟩, hz', hw'⟩ := createAll_get' h.units hk'
    have he' : u' = k' := by
      rw [List.getElem?_zipIdx, Option.map_eq_some_iff] at hz'
      obtain ⟨_, _, h2⟩ := hz'
      simp only [Prod.mk.injEq] at h2
      omega
    subst he'
    simp only [wireUnit] at hw'
    split at hw'
    · cases hw'
    · simp only [bind_ok] at hw'
      obtain ⟨l', _, a', ha', b', hb', he'⟩ := hw'
      cases he'
      rcases List.mem_append.1 hx with hx | hx
      · obtain ⟨i, h1, _⟩ := wireUnitBricks_src ha' x hx
        rcases hc with ⟨_, rfl⟩ | ⟨_, rfl⟩ <;> simp [h1, hne]
      · obtain ⟨i, _, h1, _⟩ := wireUnitSplits_src hb' x hx
        rcases hc with ⟨_, rfl⟩ | ⟨_, rfl⟩ <;> simp [h1, hne]

theorem filter_all {l : List (Wire.Flux K)} {c : Comp} {j : ℕ} (h : ∀ x ∈ l, x.src = c ∧ x.proc = j) :
    l.filter (fun f => decide (f.src = c ∧ f.proc = j)) = l :=
  List.filter_eq_self.2 fun x hx => by simp [h x hx]

/-- The outputs of a process of a unit are those made by `wireUnitProc`. -/
theorem unit_outputs_eq {inp : Input K} {m : Wire.Model K} (hd : Spec.Distinct inp) (h : build inp = .ok m) {u : ℕ}
    {un : UnitIn K} (hu : inp.units[u]? = some un) {i : ℕ} {b : Brick} (hb : un.str.unitBricks[i]? = some b) {j : ℕ}
    {p : Proc} (hp : b.procs[j]? = some p) :
    ∃ bu bb n, BuiltOK inp m.built ∧ UnitOK un bu ∧ createBrick b = .ok bb ∧ wireUnitProc m.built u un bu i bb j p = .ok n ∧
      m.net.outputs (.unitBrick u i) j = n.outs := by
  obtain ⟨nb, ns, us, hP⟩ := build_parts h
  have hok := create_ok hd hP.created
  obtain ⟨bu, hbu, hU⟩ := hok.unit hu
  obtain ⟨a, b', ha, hb', hout⟩ := hP.unit hu hbu
  obtain ⟨bb, hbb, hcb⟩ := hU.get hb
  have hname : bu.find b.name = some i := hU.find.2 ⟨b, hb, rfl⟩
  rw [hout _ j (.inl ⟨i, rfl⟩), List.filter_append]
  have h0 : b'.outs.filter (fun f => decide (f.src = .unitBrick u i ∧ f.proc = j)) = [] := by
    rw [List.filter_eq_nil_iff]
    intro x hx
    obtain ⟨_, _, h1, _⟩ := wireUnitSplits_src hb' x hx
    simp [h1]
  rw [h0, List.append_nil]
  obtain ⟨n1, hn1, he1⟩ := concatM_filter (P := fun f => decide (f.src = .unitBrick u i ∧ f.proc = j)) ha hb (by
    intro k' b2 hk' hne n2 hn2 x hx
    split at hn2
    · cases hn2
    · rename_i i2 hi2
      split at hn2
      · cases hn2
      · obtain ⟨⟨p2, j2⟩, hp2, n3, hn3, hx⟩ := (concatM_mem hn2).1 hx
        have hs := (wireUnitProc_src hn3 x hx).1
        have : i2 = k' := by
          have := hU.find.2 ⟨b2, hk', rfl⟩
          rw [this] at hi2
          cases hi2
          rfl
        simp [hs, this, hne])
  rw [he1]
  simp only [hname, hbb] at hn1
  have hz : b.procs.zipIdx[j]? = some (p, j) := by simp [hp]
  obtain ⟨n2, hn2, he2⟩ := concatM_filter (P := fun f => decide (f.src = .unitBrick u i ∧ f.proc = j)) hn1 hz (by
    rintro k' ⟨p2, j2⟩ hk' hne n2 hn2 x hx
    have hj : j2 = k' := by
      rw [List.getElem?_zipIdx, Option.map_eq_some_iff] at hk'
      obtain ⟨_, _, h2⟩ := hk'
      simp only [Prod.mk.injEq] at h2
      omega
    have hs := (wireUnitProc_src hn2 x hx).2
    simp [hs, hj, hne])
  rw [he2]
  exact ⟨bu, bb, n2, hok, hU, hcb, hn2, filter_all (wireUnitProc_src hn2)⟩

/-- **C57 (unit processes).**  In a model that builds from a structure without repeated names, the outputs of a process of a
unit are, in order, exactly the declared ones, each going where its target name says. -/
theorem c57_unit_outputs {inp : Input K} {m : Wire.Model K} (hd : Spec.Distinct inp) (h : build inp = .ok m) {u : ℕ}
    {un : UnitIn K} (hu : inp.units[u]? = some un) {i : ℕ} {b : Brick} (hb : un.str.unitBricks[i]? = some b) {j : ℕ}
    {p : Proc} (hp : b.procs[j]? = some p) (hat : p.type ∉ Spec.atmosphereNames)
    (hlat : ∀ o ∈ p.outs, o.target ≠ "lateral") :
    List.Forall₂ (fun f o => Spec.Wired inp u un b o f) (m.net.outputs (.unitBrick u i) j) p.outs := by
  obtain ⟨bu, bb, n, hok, hU, hcb, hn, he⟩ := unit_outputs_eq hd h hu hb hp
  obtain ⟨pc, hpc, hname⟩ := createBrick_proc hcb hp
  rw [he]
  unfold wireUnitProc at hn
  simp only [hpc] at hn
  have hna : toAtmosphere pc ≠ true := fun hh => hat ((toAtmosphere_iff hname).1 hh)
  rw [if_neg hna] at hn
  refine concatM_forall₂ hn fun o ho m' hm' => ?_
  exact wireUnitOut_ok hd hok (List.mem_of_getElem? hu) hU hcb (hlat o ho) hm'

/-- **C57 (release to the atmosphere).**  An evapotranspiration or sublimation process has exactly one output, to the
atmosphere, whatever outputs were declared. -/
theorem c57_atmosphere {inp : Input K} {m : Wire.Model K} (hd : Spec.Distinct inp) (h : build inp = .ok m) {u : ℕ}
    {un : UnitIn K} (hu : inp.units[u]? = some un) {i : ℕ} {b : Brick} (hb : un.str.unitBricks[i]? = some b) {j : ℕ}
    {p : Proc} (hp : b.procs[j]? = some p) (hat : p.type ∈ Spec.atmosphereNames) :
    ∃ f, m.net.outputs (.unitBrick u i) j = [f] ∧ Spec.ToAir f := by
  obtain ⟨bu, bb, n, hok, hU, hcb, hn, he⟩ := unit_outputs_eq hd h hu hb hp
  obtain ⟨pc, hpc, hname⟩ := createBrick_proc hcb hp
  rw [he]
  unfold wireUnitProc at hn
  simp only [hpc, (toAtmosphere_iff hname).2 hat, if_true] at hn
  cases hn
  exact ⟨_, rfl, rfl, rfl, ⟨rfl, rfl⟩, rfl⟩

end HB
