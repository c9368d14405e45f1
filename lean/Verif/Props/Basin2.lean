import Verif.Props.Basin
import Mathlib.Data.Rat.Defs
import Mathlib.Algebra.Order.Field.Rat

/-!
# C61: land-cover extents at set-up, and the total of a forcing
-/

set_option linter.unusedSectionVars false

namespace HB.Basin

variable {K : Type} [Field K] [LinearOrder K] [IsStrictOrderedRing K]

/-- The value given last to a name. -/
def lastFor (cs : List (CoverDecl K)) (x : String) (v : K) : K :=
  (((cs.filter fun c => c.name == x).getLast?).map (·.fraction)).getD v

theorem lastFor_cons (c : CoverDecl K) (cs : List (CoverDecl K)) (x : String) (v : K) :
    lastFor (c :: cs) x v = lastFor cs x (if c.name = x then c.fraction else v) := by
  unfold lastFor
  by_cases h : c.name = x
  · rw [List.filter_cons_of_pos (by simpa using h), if_pos h, List.getLast?_cons]
    cases (cs.filter fun c => c.name == x).getLast? <;> rfl
  · rw [List.filter_cons_of_neg (by simpa using h), if_neg h]

/-- Some declared cover is a brick of the unit that is not a land cover. -/
def Clash (g : Ground K) (cs : List (CoverDecl K)) : Prop := ∃ c ∈ cs, c.name ∉ g.hu.covers ∧ c.name ∈ g.others

theorem assignAll_spec (cs : List (CoverDecl K)) (g : Ground K) :
    (Clash g cs → g.assignAll cs = .undef) ∧
    (¬ Clash g cs → ∃ g', g.assignAll cs = .ok g' ∧ g'.hu.covers = g.hu.covers ∧ g'.hu.slot = g.hu.slot ∧
      g'.others = g.others ∧ g'.partsOk = g.partsOk ∧
      (∀ x ∈ g.hu.covers, g'.hu.frac x = lastFor cs x (g.hu.frac x) ∧ g'.init x = lastFor cs x (g.init x))) := by
  induction cs generalizing g with
  | nil =>
    refine ⟨by simp [Clash], fun _ => ⟨g, rfl, rfl, rfl, rfl, rfl, fun x _ => ?_⟩⟩
    simp [lastFor]
  | cons c cs ih =>
    simp only [Ground.assignAll]
    by_cases h1 : c.name ∈ g.hu.covers
    · set g1 : Ground K := { g with hu := g.hu.setFrac c.name c.fraction, init := Function.update g.init c.name c.fraction }
        with hg1
      have e : g.assign c = .ok g1 := by unfold Ground.assign; rw [if_pos h1]
      rw [e]
      have hcl : Clash g1 cs ↔ Clash g (c :: cs) := by
        unfold Clash
        constructor
        · rintro ⟨x, hx, hh⟩; exact ⟨x, by simp [hx], hh⟩
        · rintro ⟨x, hx, hh⟩
          rcases List.mem_cons.1 hx with rfl | hx
          · exact absurd h1 hh.1
          · exact ⟨x, hx, hh⟩
      obtain ⟨i1, i2⟩ := ih g1
      refine ⟨fun h => i1 (hcl.2 h), fun h => ?_⟩
      obtain ⟨g', a1, a2, a3, a4, a5, a6⟩ := i2 (fun hh => h (hcl.1 hh))
      refine ⟨g', a1, a2, a3, a4, a5, ?_⟩
      intro x hx
      rw [lastFor_cons, lastFor_cons, (a6 x hx).1, (a6 x hx).2]
      simp only [hg1, HU.setFrac, Function.update_apply]
      constructor
      · congr 1; by_cases e : x = c.name
        · simp [e]
        · rw [if_neg e, if_neg (fun h => e h.symm)]
      · congr 1; by_cases e : x = c.name
        · simp [e]
        · rw [if_neg e, if_neg (fun h => e h.symm)]
    · by_cases h2 : c.name ∈ g.others
      · have e : g.assign c = .undef := by unfold Ground.assign; rw [if_neg h1, if_pos h2]
        rw [e]
        exact ⟨fun _ => rfl, fun h => absurd ⟨c, by simp, h1, h2⟩ h⟩
      · have e : g.assign c = .ok g := by unfold Ground.assign; rw [if_neg h1, if_neg h2]
        rw [e]
        have hcl : Clash g cs ↔ Clash g (c :: cs) := by
          unfold Clash
          constructor
          · rintro ⟨x, hx, hh⟩; exact ⟨x, by simp [hx], hh⟩
          · rintro ⟨x, hx, hh⟩
            rcases List.mem_cons.1 hx with rfl | hx
            · exact absurd hh.2 h2
            · exact ⟨x, hx, hh⟩
        obtain ⟨i1, i2⟩ := ih g
        refine ⟨fun h => i1 (hcl.2 h), fun h => ?_⟩
        obtain ⟨g', a1, a2, a3, a4, a5, a6⟩ := i2 (fun hh => h (hcl.1 hh))
        refine ⟨g', a1, a2, a3, a4, a5, ?_⟩
        intro x hx
        have hne : c.name ≠ x := fun e => h1 (e ▸ hx)
        rw [lastFor_cons, lastFor_cons, if_neg hne, if_neg hne]
        exact a6 x hx

/-- What a unit of the model is made of: the names of its covers, of its other bricks, and whether its parts are valid. -/
structure Parts where
  covers : List String
  others : List String
  valid : Bool

/-- The unit after the assignment of the declared fractions. -/
def Assigned (u : UnitDecl K) (p : Parts) (g : Ground K) : Prop :=
  g.hu.covers = p.covers ∧ g.others = p.others ∧ g.partsOk = p.valid ∧
    ∀ x ∈ p.covers, g.hu.frac x = Spec.declared u x ∧ g.init x = Spec.declared u x

/-- A declared cover of the unit has the name of a brick of the unit that is not a land cover. -/
def NotACover (u : UnitDecl K) (p : Parts) : Prop := ∃ c ∈ u.covers, c.name ∉ p.covers ∧ c.name ∈ p.others

/-- The units of the model as built. -/
def fresh (ps : List Parts) : List (Ground K) := ps.map fun p => Ground.fresh p.covers p.others p.valid

theorem assignFractions_spec (us : List (UnitDecl K)) (ps : List Parts) (hlen : us.length = ps.length) :
    ((∃ (k : ℕ) (u : UnitDecl K) (p : Parts), us[k]? = some u ∧ ps[k]? = some p ∧ NotACover u p) →
      assignFractions us (fresh ps) = .undef) ∧
    (¬ (∃ (k : ℕ) (u : UnitDecl K) (p : Parts), us[k]? = some u ∧ ps[k]? = some p ∧ NotACover u p) →
      ∃ gs, assignFractions us (fresh ps) = .ok gs ∧ gs.length = us.length ∧
        ∀ (k : ℕ) (u : UnitDecl K) (p : Parts), us[k]? = some u → ps[k]? = some p →
          ∃ g, gs[k]? = some g ∧ Assigned u p g) := by
  induction us generalizing ps with
  | nil =>
    cases ps with
    | nil => simp [assignFractions, fresh]
    | cons => simp at hlen
  | cons u us ih =>
    cases ps with
    | nil => simp at hlen
    | cons p ps =>
      obtain ⟨i1, i2⟩ := ih ps (by simpa using hlen)
      obtain ⟨c1, c2⟩ := assignAll_spec u.covers (Ground.fresh p.covers p.others p.valid : Ground K)
      have hcl : Clash (Ground.fresh p.covers p.others p.valid : Ground K) u.covers ↔ NotACover u p := Iff.rfl
      simp only [fresh, List.map_cons, assignFractions]
      by_cases h0 : NotACover u p
      · rw [c1 (hcl.2 h0)]
        refine ⟨fun _ => rfl, fun h => absurd ⟨0, u, p, rfl, rfl, h0⟩ h⟩
      · obtain ⟨g', a1, a2, a3, a4, a5, a6⟩ := c2 (fun h => h0 (hcl.1 h))
        rw [a1]
        simp only [Out.bind]
        have hex : (∃ (k : ℕ) (u' : UnitDecl K) (p' : Parts), (u :: us)[k]? = some u' ∧ (p :: ps)[k]? = some p' ∧ NotACover u' p') ↔
            (∃ (k : ℕ) (u' : UnitDecl K) (p' : Parts), us[k]? = some u' ∧ ps[k]? = some p' ∧ NotACover u' p') := by
          constructor
          · rintro ⟨k, u', p', e1, e2, e3⟩
            cases k with
            | zero => simp at e1 e2; subst e1; subst e2; exact absurd e3 h0
            | succ k => exact ⟨k, u', p', by simpa using e1, by simpa using e2, e3⟩
          · rintro ⟨k, u', p', e1, e2, e3⟩
            exact ⟨k + 1, u', p', by simpa using e1, by simpa using e2, e3⟩
        rw [hex]
        refine ⟨fun h => ?_, fun h => ?_⟩
        · have := i1 h
          unfold fresh at this
          rw [this]
        · obtain ⟨gs, b1, b2, b3⟩ := i2 h
          unfold fresh at b1
          rw [b1]
          refine ⟨g' :: gs, rfl, by simp [b2], ?_⟩
          intro k u' p' e1 e2
          cases k with
          | zero =>
            simp only [List.getElem?_cons_zero, Option.some.injEq] at e1 e2; subst e1; subst e2
            refine ⟨g', rfl, a2, a4, a5, ?_⟩
            intro x hx
            exact a6 x hx
          | succ k =>
            simp only [List.getElem?_cons_succ] at e1 e2 ⊢
            exact b3 k u' p' e1 e2

/-- What the validation asks of a unit. -/
def UnitOk (a : K) (g : Ground K) : Prop :=
  g.partsOk = true ∧ 0 < a ∧ (g.hu.covers = [] ∨ |g.hu.total - 1| ≤ tolLoose)

theorem hu_validate_iff (u : HU K) : u.validate.1 = true ↔ (u.covers = [] ∨ |u.total - 1| ≤ tolLoose) := by
  unfold HU.validate
  by_cases h0 : u.covers = []
  · simp [h0]
  · simp only [h0, if_false, false_or]
    by_cases h1 : nearlyEqual u.total 1 epsD = true
    · rw [if_pos h1]
      have e1 : |u.total - 1| ≤ epsD := by simpa [nearlyEqual] using h1
      have : (epsD : K) ≤ tolLoose := by
        unfold epsD tolLoose
        rw [div_le_div_iff₀ (by positivity) (by positivity)]; norm_num
      simp [e1.trans this]
    · rw [if_neg h1]
      by_cases h2 : nearlyEqual u.total 1 tolLoose = true
      · rw [if_pos h2]
        have e2 : |u.total - 1| ≤ tolLoose := by simpa [nearlyEqual] using h2
        simp [e2]
      · rw [if_neg h2]
        have e2 : ¬ |u.total - 1| ≤ tolLoose := by simpa [nearlyEqual] using h2
        simp [e2]

theorem validate_iff (a : K) (g : Ground K) : (g.validate a).1 = true ↔ UnitOk a g := by
  unfold Ground.validate UnitOk
  by_cases h1 : g.partsOk = false
  · simp [h1]
  · rw [if_neg h1]
    have h1' : g.partsOk = true := by simpa using h1
    by_cases h2 : a ≤ 0
    · rw [if_pos h2]; simp [not_lt.2 h2]
    · rw [if_neg h2]; simp only [h1', true_and, not_le.1 h2, hu_validate_iff]

theorem validateAll_iff (l : List (K × Ground K)) : (validateAll l).1 = true ↔ ∀ e ∈ l, UnitOk e.1 e.2 := by
  induction l with
  | nil => simp [validateAll]
  | cons e l ih =>
    obtain ⟨a, g⟩ := e
    simp only [validateAll]
    by_cases h : (g.validate a).1 = true
    · rw [if_pos h]; simp only [ih, List.mem_cons, forall_eq_or_imp]
      simp [(validate_iff a g).1 h]
    · rw [if_neg h]
      have : ¬ UnitOk a g := fun hh => h ((validate_iff a g).2 hh)
      simp [this]

theorem validateAll_result (l : List (K × Ground K)) (h : (validateAll l).1 = true) :
    (validateAll l).2 = l.map fun e => (e.1, (e.2.validate e.1).2) := by
  induction l with
  | nil => rfl
  | cons e l ih =>
    obtain ⟨a, g⟩ := e
    simp only [validateAll] at h ⊢
    by_cases h1 : (g.validate a).1 = true
    · rw [if_pos h1] at h ⊢
      simp [ih h]
    · rw [if_neg h1] at h; cases h

/-- **C61 (acceptance).** Once the model is built with one unit per declared unit, set-up reaches undefined behaviour
exactly when a declared cover has the name of another kind of brick of its unit; otherwise it is accepted exactly when
there is at least one unit, all parts are valid, every area is positive, and in every unit with covers the extents
(declared, or 1 if not declared) add up to 1 within 1e-4. -/
theorem c61_accepted (d : Decl K) (ps : List Parts) (hlen : d.units.length = ps.length) (basinOk : Bool) :
    (initialise d (fresh ps) basinOk = .undef ↔
      ∃ (k : ℕ) (u : UnitDecl K) (p : Parts), d.units[k]? = some u ∧ ps[k]? = some p ∧ NotACover u p) ∧
    (¬ (∃ (k : ℕ) (u : UnitDecl K) (p : Parts), d.units[k]? = some u ∧ ps[k]? = some p ∧ NotACover u p) →
      ((∃ gs, initialise d (fresh ps) basinOk = .ok gs) ↔
        d.units ≠ [] ∧ basinOk = true ∧ ∀ (k : ℕ) (u : UnitDecl K) (p : Parts), d.units[k]? = some u → ps[k]? = some p →
          p.valid = true ∧ 0 < u.area ∧
            (p.covers = [] ∨ |(p.covers.map (Spec.declared u)).sum - 1| ≤ 1 / 10 ^ 4))) := by
  obtain ⟨h1, h2⟩ := assignFractions_spec d.units ps hlen
  by_cases hc : ∃ (k : ℕ) (u : UnitDecl K) (p : Parts), d.units[k]? = some u ∧ ps[k]? = some p ∧ NotACover u p
  · refine ⟨⟨fun _ => hc, fun _ => ?_⟩, fun h => absurd hc h⟩
    unfold initialise; rw [h1 hc]; rfl
  · obtain ⟨gs, a1, a2, a3⟩ := h2 hc
    have e : initialise d (fresh ps) basinOk = if gs = [] then .refused else
        if (validateAll ((d.units.map (·.area)).zip gs)).1 && basinOk then
          .ok ((validateAll ((d.units.map (·.area)).zip gs)).2.map (·.2)) else .refused := by
      unfold initialise; rw [a1]; rfl
    have hval : (validateAll ((d.units.map (·.area)).zip gs)).1 = true ↔
        ∀ (k : ℕ) (u : UnitDecl K) (p : Parts), d.units[k]? = some u → ps[k]? = some p →
          p.valid = true ∧ 0 < u.area ∧
            (p.covers = [] ∨ |(p.covers.map (Spec.declared u)).sum - 1| ≤ 1 / 10 ^ 4) := by
      rw [validateAll_iff]
      have hunit : ∀ (u : UnitDecl K) (p : Parts) (g : Ground K), Assigned u p g →
          (UnitOk u.area g ↔ p.valid = true ∧ 0 < u.area ∧
            (p.covers = [] ∨ |(p.covers.map (Spec.declared u)).sum - 1| ≤ 1 / 10 ^ 4)) := by
        intro u p g hA
        obtain ⟨b1, b2, b3, b4⟩ := hA
        unfold UnitOk HU.total
        rw [b1, b3, List.map_congr_left (fun x hx => (b4 x hx).1)]
        rfl
      constructor
      · intro h k u p e1 e2
        obtain ⟨g, e3, hA⟩ := a3 k u p e1 e2
        exact (hunit u p g hA).1 (h (u.area, g) (by
          apply List.mem_of_getElem? (i := k)
          simp [List.getElem?_zip_eq_some, e1, e3]))
      · intro h e he
        obtain ⟨k, hk⟩ := List.getElem?_of_mem he
        rw [List.getElem?_zip_eq_some] at hk
        obtain ⟨ha, hg⟩ := hk
        rw [List.getElem?_map] at ha
        cases hu : d.units[k]? with
        | none => rw [hu] at ha; cases ha
        | some u =>
          rw [hu] at ha
          simp only [Option.map_some, Option.some.injEq] at ha
          have hkp : k < ps.length := by rw [← hlen]; exact (List.getElem?_eq_some_iff.1 hu).1
          have hp : ps[k]? = some ps[k] := List.getElem?_eq_getElem hkp
          obtain ⟨g, e3, hA⟩ := a3 k u _ hu hp
          rw [hg] at e3
          have e3 := Option.some.inj e3
          rw [← ha, e3]
          exact (hunit u _ g hA).2 (h k u _ hu hp)
    have hgs : gs = [] ↔ d.units = [] := by
      rw [← List.length_eq_zero_iff, ← List.length_eq_zero_iff, a2]
    refine ⟨⟨fun h => ?_, fun h => absurd h hc⟩, fun _ => ?_⟩
    · rw [e] at h
      split at h
      · cases h
      · split at h <;> cases h
    · rw [e, ← hval]
      by_cases hz : gs = []
      · rw [if_pos hz]; simp [hgs.1 hz]
      · rw [if_neg hz]
        have : d.units ≠ [] := fun hh => hz (hgs.2 hh)
        simp only [ne_eq, this, not_false_eq_true, true_and]
        cases (validateAll ((d.units.map (·.area)).zip gs)).1 <;> cases basinOk <;> simp

theorem fixFirst_close (u : HU K) (diff : K) :
    (u.fixFirst diff).covers = u.covers ∧ (u.fixFirst diff).slot = u.slot ∧
      ∃ c0, ∀ c, c ≠ c0 → (u.fixFirst diff).frac c = u.frac c := by
  unfold HU.fixFirst
  split
  · rename_i c _
    exact ⟨rfl, rfl, c, fun x hx => by simp [HU.setFrac, Function.update_of_ne hx]⟩
  · exact ⟨rfl, rfl, "", fun _ _ => rfl⟩

theorem fixFirst_bound (u : HU K) (diff : K) (c : String) : |(u.fixFirst diff).frac c - u.frac c| ≤ |diff| := by
  unfold HU.fixFirst
  split
  · rename_i x _
    by_cases h : c = x
    · subst h; simp [HU.setFrac]
    · simp [HU.setFrac, Function.update_of_ne h]
  · simp

theorem hu_validate_close (u : HU K) :
    u.validate.2.covers = u.covers ∧ u.validate.2.slot = u.slot ∧
      (∃ c0, ∀ c, c ≠ c0 → u.validate.2.frac c = u.frac c) ∧ ∀ c, |u.validate.2.frac c - u.frac c| ≤ tolLoose := by
  have t0 : (0 : K) ≤ tolLoose := tolLoose_pos.le
  have triv : u.covers = u.covers ∧ u.slot = u.slot ∧ (∃ c0, ∀ c : String, c ≠ c0 → u.frac c = u.frac c) ∧
      ∀ c, |u.frac c - u.frac c| ≤ (tolLoose : K) := ⟨rfl, rfl, ⟨"", fun _ _ => rfl⟩, fun c => by simpa using t0⟩
  unfold HU.validate
  split
  · exact triv
  · split
    · exact triv
    · split
      · rename_i h2
        have e2 : |u.total - 1| ≤ tolLoose := by simpa [nearlyEqual] using h2
        obtain ⟨a, b, c⟩ := fixFirst_close u (u.total - 1)
        exact ⟨a, b, c, fun x => (fixFirst_bound u _ x).trans e2⟩
      · exact triv

/-- **C61 (extents).** After an accepted set-up every unit has its covers; each has its declared extent (1 if not
declared), except at most one, which differs by at most 1e-4, and not even that one if they add up to 1; the declared extents are the ones a later reset restores;
and if the declared extents are between 0 and 1 (and the unit has fewer than 9999 covers, with distinct names), the
extents in use are between 0 and 1 and add up to 1 within rounding. -/
theorem c61_extents (d : Decl K) (ps : List Parts) (hlen : d.units.length = ps.length) (basinOk : Bool)
    (gs : List (Ground K)) (hok : initialise d (fresh ps) basinOk = .ok gs) :
    gs.length = d.units.length ∧
    ∀ (k : ℕ) (u : UnitDecl K) (p : Parts), d.units[k]? = some u → ps[k]? = some p →
      ∃ g, gs[k]? = some g ∧ g.hu.covers = p.covers ∧
        (∃ c0, ∀ c ∈ p.covers, c ≠ c0 ∨ (p.covers.map (Spec.declared u)).sum = 1 → g.hu.frac c = Spec.declared u c) ∧
        (∀ c ∈ p.covers, |g.hu.frac c - Spec.declared u c| ≤ 1 / 10 ^ 4) ∧
        (∀ c ∈ p.covers, g.restore.hu.frac c = Spec.declared u c) ∧
        (p.covers ≠ [] → p.covers.Nodup → p.covers.length < 9999 →
          (∀ c ∈ p.covers, 0 ≤ Spec.declared u c ∧ Spec.declared u c ≤ 1) → HB.Spec.Extents g.hu) := by
  obtain ⟨h1, h2⟩ := assignFractions_spec d.units ps hlen
  by_cases hc : ∃ (k : ℕ) (u : UnitDecl K) (p : Parts), d.units[k]? = some u ∧ ps[k]? = some p ∧ NotACover u p
  · rw [(c61_accepted d ps hlen basinOk).1.2 hc] at hok; cases hok
  · obtain ⟨gs0, a1, a2, a3⟩ := h2 hc
    have e : initialise d (fresh ps) basinOk = if gs0 = [] then .refused else
        if (validateAll ((d.units.map (·.area)).zip gs0)).1 && basinOk then
          .ok ((validateAll ((d.units.map (·.area)).zip gs0)).2.map (·.2)) else .refused := by
      unfold initialise; rw [a1]; rfl
    rw [e] at hok
    split at hok
    · cases hok
    · split at hok
      · rename_i hv
        have hv1 : (validateAll ((d.units.map (·.area)).zip gs0)).1 = true := by
          cases hh : (validateAll ((d.units.map (·.area)).zip gs0)).1
          · rw [hh] at hv; simp at hv
          · rfl
        cases hok
        rw [validateAll_result _ hv1]
        refine ⟨by simp [a2], ?_⟩
        intro k u p e1 e2
        obtain ⟨g, e3, b1, b2, b3, b4⟩ := a3 k u p e1 e2
        have hz : ((d.units.map (·.area)).zip gs0)[k]? = some (u.area, g) := by
          simp [List.getElem?_zip_eq_some, e1, e3]
        have hok := (validateAll_iff _).1 hv1 _ (List.mem_of_getElem? hz)
        have hgv : (g.validate u.area).2 = { g with hu := g.hu.validate.2 } := by
          unfold Ground.validate
          have hp : g.partsOk = true := hok.1
          rw [if_neg (by simp [hp]), if_neg (not_le.2 hok.2.1)]
        refine ⟨(g.validate u.area).2, by rw [List.getElem?_map, List.getElem?_map, hz]; rfl, ?_⟩
        rw [hgv]
        obtain ⟨v1, v2, ⟨c0, v3⟩, v4⟩ := hu_validate_close g.hu
        refine ⟨v1.trans b1, ⟨c0, fun c hc hor => ?_⟩, ?_, fun c hc => (b4 c hc).2, ?_⟩
        · rcases hor with hne | h1
          · exact (v3 c hne).trans (b4 c hc).1
          · rw [← (b4 c hc).1]
            refine congrFun (congrArg HU.frac (?_ : g.hu.validate.2 = g.hu)) c
            have ht : g.hu.total = 1 := by
              rw [← h1]
              unfold HU.total
              rw [b1, List.map_congr_left (fun x hx => (b4 x hx).1)]
            unfold HU.validate
            split
            · rfl
            · rw [if_pos (by rw [ht]; simpa [nearlyEqual] using epsD_nonneg)]
        · intro c hc
          rw [← (b4 c hc).1]
          exact v4 c
        · intro hne hnd hl hr
          exact c32_valid_start (by rw [b1]; exact hnd) (by rw [b1]; exact hne)
            (fun c hc => by rw [b1] at hc; rw [(b4 c hc).1]; exact (hr c hc).1)
            (fun c hc => by rw [b1] at hc; rw [(b4 c hc).1]; exact (hr c hc).2)
            (by rw [b1]; exact hl) ((hu_validate_iff _).2 hok.2.2)
      · cases hok

/-! ## Total of a forcing -/

theorem foldlM_total (s : DSeries K) (us : List (UnitDecl K)) (A t : K)
    (h : ∀ u ∈ us, ∃ r, s.dataFor u.id = some r) :
    us.foldlM (fun total u => (s.dataFor u.id).map fun r => total + r.values.foldl (· + ·) 0 * u.area / A) t =
      some (t + (us.map fun u => ((s.dataFor u.id).elim 0 fun r => r.values.sum) * u.area / A).sum) := by
  induction us generalizing t with
  | nil => simp
  | cons u us ih =>
    obtain ⟨r, hr⟩ := h u (by simp)
    rw [List.foldlM_cons, hr]
    simp only [Option.map_some, Option.bind_eq_bind, Option.bind_some, List.map_cons, List.sum_cons, hr, Option.elim]
    rw [ih _ (fun x hx => h x (by simp [hx])), ← List.sum_eq_foldl]
    congr 1
    rw [add_assoc]
    rfl

theorem sum_div (us : List (UnitDecl K)) (f : UnitDecl K → K) (A : K) :
    (us.map fun u => f u / A).sum = (us.map f).sum / A := by
  induction us with
  | nil => simp
  | cons u us ih => simp only [List.map_cons, List.sum_cons, ih, add_div]

theorem foldlM_none (s : DSeries K) (us : List (UnitDecl K)) (A t : K) (u : UnitDecl K) (hu : u ∈ us)
    (hn : s.dataFor u.id = none) :
    us.foldlM (fun total u => (s.dataFor u.id).map fun r => total + r.values.foldl (· + ·) 0 * u.area / A) t = none := by
  induction us generalizing t with
  | nil => cases hu
  | cons v us ih =>
    rw [List.foldlM_cons]
    rcases List.mem_cons.1 hu with rfl | hu
    · rw [hn]; rfl
    · cases s.dataFor v.id with
      | none => rfl
      | some r => simp only [Option.map_some, Option.bind_eq_bind, Option.bind_some]; exact ih _ hu

/-- **C61 (total of a forcing).** The reported total of a forcing is the area-weighted mean, over the declared units, of
the totals of the units' own series; a unit without a series is an error. -/
theorem c61_forcing_total (d : Decl K) (s : DSeries K) :
    ((∀ u ∈ d.units, ∃ r, s.dataFor u.id = some r) →
      seriesTotal d s = some ((d.units.map fun u => ((s.dataFor u.id).elim 0 fun r => r.values.sum) * u.area).sum /
        (d.units.map (·.area)).sum)) ∧
    ((∃ u ∈ d.units, s.dataFor u.id = none) → seriesTotal d s = none) := by
  constructor
  · intro h
    unfold seriesTotal
    simp only
    rw [← List.sum_eq_foldl, foldlM_total s d.units _ 0 h, zero_add]
    rw [sum_div]
  · rintro ⟨u, hu, hn⟩
    unfold seriesTotal
    simp only
    exact foldlM_none s d.units _ 0 u hu hn

/-! ## Examples and limits -/

namespace Demo

/-- Two units; the second gives 40 % of its lateral flow to the first; one connection names an unknown unit. -/
def calls : List (Cmd ℚ) :=
  [.unit 7 100 1200, .cover "open" "open" (7 / 10), .cover "glacier" "glacier" (3 / 10), .propD "slope" 20 "degrees",
   .lateral 3 7 (2 / 5) "", .unit 3 300 1500, .cover "open" "open" (99995 / 100000), .propS "soil" "clay",
   .lateral 3 99 2 ""]

def parts : List Parts := [⟨["glacier", "open"], ["slow"], true⟩, ⟨["open"], ["slow"], true⟩]

/-- What one wants to see of an outcome. -/
def shown (x : Out (List (Ground ℚ))) : Option (List (List (String × ℚ))) :=
  match x with
  | .ok gs => some (gs.map fun g => g.hu.covers.map fun c => (c, g.hu.frac c))
  | _ => none

def decl : Decl ℚ :=
  ⟨[⟨7, 100, 1200, [⟨"open", "open", 7 / 10⟩, ⟨"glacier", "glacier", 3 / 10⟩], [⟨"slope", 20, "degrees"⟩], []⟩,
    ⟨3, 300, 1500, [⟨"open", "open", 99995 / 100000⟩], [], [⟨"soil", "clay"⟩]⟩],
   [⟨3, 7, 2 / 5, ""⟩, ⟨3, 99, 2, ""⟩], some 1⟩

/-- The hypotheses of the theorems of C61 are met by a basin with two units, and what comes out. -/
theorem c61_example :
    (∀ c ∈ calls, Spec.plain c = true) ∧ Decl.empty.run calls = .ok decl ∧ (decl.units.map (·.id)).Nodup ∧
    build decl = .ok ⟨[⟨7, 100, [⟨"slope", some 20, "degrees", ""⟩], []⟩,
      ⟨3, 300, [⟨"soil", none, "", "clay"⟩], [⟨0, 2 / 5, ""⟩]⟩], 400⟩ ∧
    shown (initialise decl (fresh parts) true) =
      some [[("glacier", 3 / 10), ("open", 7 / 10)], [("open", 1)]] := by
  refine ⟨by decide +kernel, by decide +kernel, by decide +kernel, by decide +kernel, by decide +kernel⟩

/-- A unit without glacier (declared extent 0) and 99.99 % of open land. -/
def noGlacier : Decl ℚ :=
  ⟨[⟨1, 50, 0, [⟨"glacier", "glacier", 0⟩, ⟨"open", "open", 9999 / 10000⟩], [], []⟩], [], none⟩

/-- **C61 (limit).** The missing share goes to the first cover of the unit even if that cover was declared absent: the
unit gets a glacier. -/
theorem c61_absent_cover_gets_area :
    shown (initialise noGlacier (fresh [⟨["glacier", "open"], [], true⟩]) true) =
      some [[("glacier", 1 / 10000), ("open", 9999 / 10000)]] := by decide +kernel

/-- **C61 (limit).** A reset (or the end of the spin-up) brings back the declared extents without the correction: the
extents no longer add up to 1 within rounding. -/
theorem c61_reset_loses_correction :
    (match initialise noGlacier (fresh [⟨["glacier", "open"], [], true⟩]) true with
      | .ok gs => some (gs.map fun g => (g.hu.total, g.restore.hu.total))
      | _ => none) = some [(1, 9999 / 10000)] := by decide +kernel

/-- **C61 (limit).** With a repeated id, a connection leaves from, and leads to, the last unit of that id. -/
theorem c61_repeated_id :
    build (⟨[⟨1, 50, 0, [], [], []⟩, ⟨1, 60, 0, [], [], []⟩, ⟨2, 70, 0, [], [], []⟩], [⟨2, 1, 1, ""⟩, ⟨1, 2, 1, ""⟩], none⟩ :
      Decl ℚ) = .ok ⟨[⟨1, 50, [], []⟩, ⟨1, 60, [], [⟨2, 1, ""⟩]⟩, ⟨2, 70, [], [⟨1, 1, ""⟩]⟩], 180⟩ := by decide +kernel

/-- **C61 (limit).** A declared cover with the name of another kind of brick is undefined behaviour, not an error. -/
theorem c61_cover_named_like_a_brick :
    initialise (⟨[⟨1, 50, 0, [⟨"open", "", 1⟩, ⟨"slow", "", 0⟩], [], []⟩], [], none⟩ : Decl ℚ)
      (fresh [⟨["open"], ["slow"], true⟩]) true = .undef :=
  (c61_accepted _ _ rfl _).1.2 ⟨0, _, _, rfl, rfl, ⟨"slow", "", 0⟩, by simp, by decide, by decide⟩

/-- Two units with a series each: total 12 on 100 and 4 on 300 gives 6. -/
theorem c61_forcing_example :
    seriesTotal decl ⟨.precipitation, [(3, ⟨0, 1, 1, .day, [1, 3], 0⟩), (7, ⟨0, 1, 1, .day, [5, 7], 0⟩)]⟩ = some 6 := by
  decide +kernel

end Demo

end HB.Basin
