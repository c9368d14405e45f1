import Verif.Model.Weights
import Mathlib.Tactic.Linarith
import Mathlib.Tactic.FieldSimp
import Mathlib.Tactic.Ring

/-!
# C12: area weighting of fluxes conserves volume
-/

namespace HB

set_option linter.unusedSectionVars false

variable {K : Type} [Field K] [LinearOrder K] [IsStrictOrderedRing K]

/-- Area over which an amount received by the target is expressed (spec). -/
def Spec.dstArea (unitArea basin : K) : Dst → K
  | .outlet | .subBasinBrick => basin
  | .unitStorage | .unitCover => unitArea

theorem deliver_eq (f : OutFlux K) (x : K) (h : f.frac ≤ 1) : f.deliver x = x * f.frac := by
  unfold OutFlux.deliver FluxSpec.scale OutFlux.spec
  dsimp only
  rcases h.lt_or_eq with h | h
  · simp [h, h.ne]
  · simp [h]

/-- The land covers of a history of extents keep their fluxes weighted by the current extent. -/
theorem cover_history (unitArea basin : K) (dsts : List (Dst × Bool)) (vs : List K) :
    (vs.foldl CoverW.setFraction (CoverW.build unitArea basin dsts)).frac = vs.getLast?.getD 1 ∧
    (vs.foldl CoverW.setFraction (CoverW.build unitArea basin dsts)).outs =
      dsts.map (fun d =>
        let f := buildFlux true unitArea basin d.1 d.2
        { f with fracLand := if f.needsW then vs.getLast?.getD 1 else f.fracLand }) := by
  induction vs using List.reverseRecOn with
  | nil =>
    refine ⟨rfl, ?_⟩
    simp only [List.foldl_nil, CoverW.build]
    apply List.map_congr_left
    rintro ⟨d, i⟩ _
    cases d <;> rfl
  | append_singleton vs v ih =>
    rw [List.foldl_append, List.foldl_cons, List.foldl_nil, List.getLast?_concat]
    refine ⟨rfl, ?_⟩
    generalize hg : List.foldl CoverW.setFraction (CoverW.build unitArea basin dsts) vs = c at ih
    simp only [CoverW.setFraction]
    rw [ih.2, List.map_map]
    apply List.map_congr_left
    rintro ⟨d, i⟩ _
    cases d <;> rfl

/-- **C12 (land covers).** After any history of extents (in `[0,1]`) of a land cover, an amount `x`
released over the area of the cover reaches a storage of the unit, a brick of the sub-basin or the
outlet as the same volume. -/
theorem c12_cover_partial (unitArea basin : K) (hu : 0 < unitArea) (hb : unitArea ≤ basin)
    (dsts : List (Dst × Bool)) (vs : List K) (hv : ∀ v ∈ vs, 0 ≤ v ∧ v ≤ 1)
    (c : CoverW K) (hc : c = vs.foldl CoverW.setFraction (CoverW.build unitArea basin dsts)) :
    c.frac = vs.getLast?.getD 1 ∧
    ∀ f ∈ c.outs, f.dst ≠ .unitCover → ∀ x,
      f.deliver x * Spec.dstArea unitArea basin f.dst = x * (c.frac * unitArea) := by
  obtain ⟨h1, h2⟩ := cover_history unitArea basin dsts vs
  rw [← hc] at h1 h2
  refine ⟨h1, ?_⟩
  have hφ : 0 ≤ c.frac ∧ c.frac ≤ 1 := by
    rw [h1]
    cases hx : vs.getLast? with
    | none => simp
    | some v => exact hv v (List.mem_of_getLast? hx)
  have hB : 0 < basin := lt_of_lt_of_le hu hb
  have hr : unitArea / basin ≤ 1 := by rw [div_le_one hB]; exact hb
  have hr0 : 0 ≤ unitArea / basin := div_nonneg hu.le hB.le
  intro f hf hd x
  rw [h2, ← h1] at hf
  obtain ⟨⟨d, i⟩, _, rfl⟩ := List.mem_map.1 hf
  have hle : unitArea / basin * c.frac ≤ 1 := mul_le_one₀ hr hφ.1 hφ.2
  cases d with
  | unitCover => exact absurd rfl hd
  | outlet =>
    rw [deliver_eq _ _ (by simpa [OutFlux.frac, buildFlux] using hle)]
    simp only [OutFlux.frac, buildFlux, Spec.dstArea, if_true]; field_simp
  | subBasinBrick =>
    rw [deliver_eq _ _ (by simpa [OutFlux.frac, buildFlux] using hle)]
    simp only [OutFlux.frac, buildFlux, Spec.dstArea, if_true]; field_simp
  | unitStorage =>
    rw [deliver_eq _ _ (by simpa [OutFlux.frac, buildFlux] using hφ.2)]
    simp only [OutFlux.frac, buildFlux, Spec.dstArea, if_true]; ring

/-- **C12 (storages of a unit).** -/
theorem c12_storage (unitArea basin : K) (hu : 0 < unitArea) (hb : unitArea ≤ basin) (d : Dst)
    (hd : d ≠ .unitCover) (inst : Bool) (x : K) :
    (buildFlux false unitArea basin d inst).deliver x * Spec.dstArea unitArea basin d = x * unitArea := by
  have hB : 0 < basin := lt_of_lt_of_le hu hb
  have hr : unitArea / basin ≤ 1 := by rw [div_le_one hB]; exact hb
  cases d with
  | unitCover => exact absurd rfl hd
  | outlet =>
    rw [deliver_eq _ _ (by simpa [OutFlux.frac, buildFlux] using hr)]
    simp only [OutFlux.frac, buildFlux, Spec.dstArea]; field_simp
  | subBasinBrick =>
    rw [deliver_eq _ _ (by simpa [OutFlux.frac, buildFlux] using hr)]
    simp only [OutFlux.frac, buildFlux, Spec.dstArea]; field_simp
  | unitStorage =>
    rw [deliver_eq _ _ (by simp [OutFlux.frac, buildFlux])]
    simp [OutFlux.frac, buildFlux, Spec.dstArea]

theorem basinArea_eq (areas : List K) : basinArea areas = areas.sum := by
  unfold basinArea
  have : ∀ (l : List K) (a : K), l.foldl (· + ·) a = a + l.sum := by
    intro l
    induction l with
    | nil => intro a; simp
    | cons b l ih => intro a; rw [List.foldl_cons, ih, List.sum_cons]; ring
  rw [this, zero_add]

/-- The hypothesis `unitArea ≤ basin` of the two theorems above: the basin area is the sum of the
(positive) unit areas. -/
theorem unit_le_basin (areas : List K) (h : ∀ a ∈ areas, 0 < a) (a : K) (ha : a ∈ areas) :
    a ≤ basinArea areas := by
  rw [basinArea_eq]
  exact List.single_le_sum (fun b hb => (h b hb).le) a ha

/-- A contribution to the outlet: area of the unit, extent of the cover (`none` for a storage),
amount released. -/
structure Spec.Contribution (K : Type) where
  unitArea : K
  extent : Option K
  amount : K

/-- The flux carrying a contribution. -/
def contributionFlux (basin : K) (c : Spec.Contribution K) : OutFlux K :=
  match c.extent with
  | none => buildFlux false c.unitArea basin .outlet false
  | some φ => { buildFlux true c.unitArea basin .outlet false with fracLand := φ }

/-- **C12 (outlet).** The outlet discharge (sum of the amounts of the outlet fluxes) times the basin
area is the sum of the released volumes: the discharge is the area-weighted mean of the contributions. -/
theorem c12_outlet (areas : List K) (hp : ∀ a ∈ areas, 0 < a) (cs : List (Spec.Contribution K))
    (hc : ∀ c ∈ cs, c.unitArea ∈ areas ∧ ∀ φ, c.extent = some φ → 0 ≤ φ ∧ φ ≤ 1) :
    (cs.map (fun c => (contributionFlux (basinArea areas) c).deliver c.amount)).sum * basinArea areas
      = (cs.map (fun c => c.unitArea * c.extent.getD 1 * c.amount)).sum := by
  induction cs with
  | nil => simp
  | cons c cs ih =>
    rw [List.map_cons, List.map_cons, List.sum_cons, List.sum_cons, add_mul,
      ih (fun c' h => hc c' (by simp [h]))]
    congr 1
    obtain ⟨ha, hφ⟩ := hc c (by simp)
    have hu := hp _ ha
    have hb := unit_le_basin areas hp _ ha
    have hB : 0 < basinArea areas := lt_of_lt_of_le hu hb
    have hr : c.unitArea / basinArea areas ≤ 1 := by rw [div_le_one hB]; exact hb
    unfold contributionFlux
    cases he : c.extent with
    | none =>
      have := c12_storage c.unitArea _ hu hb .outlet (by decide) false c.amount
      simp only [Spec.dstArea] at this
      simp only [Option.getD_none, this]; ring
    | some φ =>
      have h1 := hφ φ he
      simp only
      rw [deliver_eq _ _ (by
        simp only [OutFlux.frac, buildFlux]
        exact mul_le_one₀ hr h1.1 h1.2)]
      simp only [OutFlux.frac, buildFlux, Option.getD_some]; field_simp

/-- **C12 (surface components).** A surface component (snowpack, canopy) of its land cover's extent
gets the right weight when at most one of its outputs leaves the land cover... -/
theorem c12_surface_single (φ : K) (pre post : List (OutFlux K)) (f : OutFlux K)
    (h1 : ∀ g ∈ pre, g.needsW = false) (h2 : ∀ g ∈ post, g.needsW = false) (hf : f.needsW = true) :
    surfaceWeights φ 1 (pre ++ f :: post) = pre ++ { f with fracLand := φ } :: post := by
  induction pre with
  | nil =>
    simp only [List.nil_append, surfaceWeights, hf, if_true, one_mul]
    congr 1
    induction post with
    | nil => rfl
    | cons g l ih =>
      simp only [surfaceWeights, h2 g (by simp), Bool.false_eq_true, if_false]
      rw [ih (fun g' hg => h2 g' (by simp [hg]))]
  | cons g l ih =>
    simp only [List.cons_append, surfaceWeights, h1 g (by simp), Bool.false_eq_true, if_false]
    rw [ih (fun g' hg => h1 g' (by simp [hg]))]

/-- ... but **(negative result)** with two such outputs the second one is weighted by the square of the
extent: 10 mm released over half of a 100 m² unit arrive as 250 instead of 500. -/
theorem c12_surface_second_output_loses :
    ∃ f g : OutFlux ℚ, surfaceWeights (1/2) 1 [buildFlux true 100 100 .unitStorage false,
        buildFlux true 100 100 .unitStorage false] = [f, g] ∧
      f.deliver 10 * 100 = 10 * (1/2 * 100) ∧ g.deliver 10 * 100 = 250 := by
  refine ⟨⟨.unitStorage, false, true, 1, 1/2⟩, ⟨.unitStorage, false, true, 1, 1/4⟩, ?_, ?_, ?_⟩ <;>
    decide +kernel

/-- **Negative result.** A flux between two land covers of a unit is not weighted: 10 mm leaving a
cover of half of the unit are received as 10 mm by a cover of a tenth of it, a loss of 400. -/
theorem c12_cover_to_cover_not_conserved :
    ((buildFlux true (100:ℚ) 100 .unitCover false).deliver 10) * (1/10 * 100) = 10 * (1/2 * 100) - 400 := by
  decide +kernel

/-- Witness: two units of 60 and 40, a cover of a fourth of the first, the storage of the second. -/
example : (([⟨60, some (1/4), 8⟩, ⟨40, none, 3⟩] : List (Spec.Contribution ℚ)).map
    (fun c => (contributionFlux (basinArea [60, 40]) c).deliver c.amount)).sum = (60 * (1/4) * 8 + 40 * 3) / 100 := by
  decide +kernel

/-- What the receiving end of a flux has got: the amount it will read from a plain flux, the deposit already made by an
instantaneous one. -/
def Spec.received (net : Net K) (before after : Phys K) (f c : ℕ) : K :=
  if (net.flux f).inst then (after.cont c).stat - (before.cont c).stat else getAmount net after f

/-- **C12 (applied).**  When a process moves water through a weighted flux of the network, the volume that leaves the source
store is the volume that the receiving store gets. -/
theorem c12_applied (net : Net K) (dt rate : K) (src f c : ℕ) (ph : Phys K) (hrate : prec < rate)
    (ht : (net.flux f).target = .cont c) (hne : c ≠ src) (hfin : (ph.cont src).infinite = false)
    (hcf : (ph.cont c).infinite = false)
    {srcArea dstArea : K} (hfrac : (net.flux f).frac * dstArea = srcArea) (hle : (net.flux f).frac ≤ 1) :
    ((ph.cont src).dyn - ((applyChange net dt src f rate ph).cont src).dyn) * srcArea =
      Spec.received net ph (applyChange net dt src f rate ph) f c * dstArea := by
  have hp : (0 : K) < prec := by unfold prec; norm_num
  have h0 : ¬ rate < 0 := not_lt.2 (hp.trans hrate).le
  have hg : greaterThan rate 0 prec = true := by
    simp only [greaterThan, decide_eq_true_eq]; linarith
  have hs : ∀ x, (net.flux f).scale x = x * (net.flux f).frac := by
    intro x
    unfold FluxSpec.scale
    rcases hle.lt_or_eq with h | h
    · simp [h, h.ne]
    · simp [h]
  unfold applyChange Spec.received
  simp only [if_neg h0, hg, if_true]
  unfold updateFlux getAmount
  by_cases hi : (net.flux f).inst = true
  · simp [hi, ht, upd, hne, hne.symm, Cont.subDyn, Cont.addStat, hfin, hcf, hs]
    rw [← hfrac]; ring
  · simp [hi, upd, Cont.subDyn, hfin, hs]
    rw [← hfrac]; ring

end HB
