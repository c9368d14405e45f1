import Verif.Props.Precip
import Verif.Props.PredefinedExamples

/-!
# C67: a Socont model with glacier whose balance closes, and rain lost on a sliver of land
-/

set_option linter.unusedSectionVars false

namespace HB

open HB.Names HB.Wire HB.Asm

namespace PrecipDemo

/-- Every process asks for a tenth; the hidden state is the clock. -/
def laws : Laws ℚ ℕ where
  rates _ h _ := (fun _ => 1 / 10, 0, h)
  fin _ h _ := h
  split _ h _ := (fun _ => 0, h)

/-- Each day more rain, and always two of snow. -/
def share (ty : String) (u t : ℕ) : List ℚ := if ty = "rain" then [t + u + 3] else [t + u + 1, 2]

theorem clocked (sch : Scheme ℚ ℕ) (h : ∀ law, sch ≠ .sequential law) : Spec.Clocked laws sch (· + 1) id :=
  ⟨fun _ _ _ => rfl, fun _ _ _ => rfl, fun _ _ _ => rfl, fun law he => absurd he (h law), fun _ => rfl⟩

/-- The laws with the splitters at work. -/
def full (inp : Input ℚ) : Laws ℚ ℕ := withSplitters inp (PreDemo.modelOf inp) id share laws

/-- The ice of the glacier is inexhaustible, everything else holds 5. -/
def phys : Phys ℚ where
  cont := fun c => if c % 3 = 2 then ⟨0, 0, 0, 0, none, true, false⟩ else ⟨5, 0, 0, 0, none, false, false⟩
  amt := fun _ => 0
  snap := fun _ => 0
  exch := fun _ => 0

/-- The initial state, on day 7. -/
def start : Sys ℚ ℕ := ⟨phys, fun _ => none, 7⟩

theorem fresh (inp : Input ℚ) (ext : ℕ → ℕ → ℚ) (m : Wire.Model ℚ) : Spec.Fresh inp ext m start.ph where
  still x _ := by simp only [start, phys]; split <;> rfl
  idle _ _ _ _ := rfl

/-- Covers sharing a unit equally cover it whole. -/
theorem covered_of {inp : Input ℚ} (h : ∀ un ∈ inp.units, un.str.covers ≠ [] ∧ un.str.covers.length < 1000) : Spec.Covered inp (PreDemo.share inp) := by
  constructor
  · intro u un hu
    obtain ⟨h1, -⟩ := h un (List.mem_of_getElem? hu)
    have : un.str.covers.map (PreDemo.share inp u) = List.replicate un.str.covers.length (1 / (un.str.covers.length : ℚ)) := by
      rw [List.eq_replicate_iff]
      refine ⟨by simp, fun x hx => ?_⟩
      obtain ⟨i, -, rfl⟩ := List.mem_map.1 hx
      simp [PreDemo.share, hu]
    rw [this, List.sum_replicate, nsmul_eq_mul]
    have h0 : (un.str.covers.length : ℚ) ≠ 0 := by
      have := List.length_pos_of_ne_nil h1
      exact_mod_cast this.ne'
    field_simp
  · intro u un hu i _
    right
    obtain ⟨h1, h2⟩ := h un (List.mem_of_getElem? hu)
    have := List.length_pos_of_ne_nil h1
    have h3 : (0 : ℚ) < un.str.covers.length := by exact_mod_cast this
    have h4 : (un.str.covers.length : ℚ) < 1000 := by exact_mod_cast h2
    simp only [PreDemo.share, hu, Option.elim]
    rw [lt_div_iff₀ h3]
    unfold prec
    nlinarith

theorem socont_described : Spec.Described PreDemo.socontIn :=
  described (socont_good PreDemo.alpine_good PreDemo.default_snow ⟨⟨"open", "open"⟩, by decide, by decide⟩ (fun _ => by decide)).1 PreDemo.socont_from
    (by rintro ⟨v, hv, hne⟩
        exact absurd ((socont_good PreDemo.alpine_good PreDemo.default_snow ⟨⟨"open", "open"⟩, by decide, by decide⟩ (fun _ => by decide)).2 v hv).2 hne)

/-- The theorem applies to the Socont model with two units, one with a glacier. -/
theorem socont_closes : Spec.Closes PreDemo.socontIn (PreDemo.modelOf PreDemo.socontIn) (PreDemo.share PreDemo.socontIn) (full PreDemo.socontIn)
    .heun 1 (· + 1) id (fallen PreDemo.socontIn share) := by
  refine c67_socont_closes PreDemo.alpine_good PreDemo.default_snow ⟨⟨"open", "open"⟩, by decide, by decide⟩ (fun _ => by decide) rfl
    PreDemo.socont_from PreDemo.socont_builds (PreDemo.areas_of (by decide +kernel)) (covered_of (by decide +kernel))
    ?_ (withSplitters_clocked (clocked _ (fun _ h => by cases h)))
  refine splitters_work socont_described PreDemo.socont_builds ?_
  intro u un s hu hs _ t
  have key : ∀ un ∈ PreDemo.socontIn.units, ∀ s ∈ un.str.unitSplits[0]?, s.type ≠ "rain" ∧ s.outs.length = 2 := by decide +kernel
  obtain ⟨h1, h2⟩ := key un (List.mem_of_getElem? hu) s hs
  rw [h2]
  simp [share, h1]

/-- What a run gives: discharge, precipitation, evaporation, supply, change of volume, logs. -/
def outcome (inp : Input ℚ) (ext : ℕ → ℕ → ℚ) (sch : Scheme ℚ ℕ) (n : ℕ) : Option (List ℚ × ℚ × ℚ × ℚ × ℚ × ℕ) :=
  let m := PreDemo.modelOf inp
  match runSteps (asm inp m ext) (full inp) sch 1 (· + 1) n start with
  | .ok (recs, s') => some (recs.map (outletDischarge (asm inp m ext)),
      ((List.range n).map fun i => Spec.precipitation inp (fallen inp share) (7 + i)).sum, (recs.map (Spec.evaporated inp ext m)).sum,
      (recs.map (Spec.supplied inp ext m (Spec.endless inp ext phys))).sum,
      Spec.volume inp ext (Spec.system inp ext phys) s'.ph - Spec.volume inp ext (Spec.system inp ext phys) start.ph, s'.ph.logs)
  | .error _ => none

/-- Two steps, starting on day 7: 86 fall, 4 · 4/5 leave at the outlet, 4/5 evaporate, the ice gives 1/10, 821/10 stay. -/
theorem socont_runs : outcome PreDemo.socontIn (PreDemo.share PreDemo.socontIn) .heun 2 = some ([2 / 5, 2 / 5], 86, 4 / 5, 1 / 10, 821 / 10, 0) := by
  decide +kernel

/-! ## A sliver of land -/

/-- One unit with open land and a glacier. -/
def sliverIn : Input ℚ := PreDemo.inputOf (socont {} PreDemo.alpine) [(1, 1)]

/-- The glacier has a billionth of the unit, the open land the rest. -/
def sliver (_ i : ℕ) : ℚ := if i = 0 then 999999999 / 1000000000 else 1 / 1000000000

/-- A thousand of rain on a day. -/
def storm (ty : String) (_ _ : ℕ) : List ℚ := if ty = "rain" then [1000] else [1000, 0]

/-- The laws with this rain. -/
def stormy : Laws ℚ ℕ := withSplitters sliverIn (PreDemo.modelOf sliverIn) id storm laws

/-- The gap in the balance is above the tolerance. -/
def gap : Bool :=
  let m := PreDemo.modelOf sliverIn
  match runSteps (asm sliverIn m sliver) stormy .euler 1 (· + 1) 1 start with
  | .ok (recs, s') => decide (s'.ph.logs = start.ph.logs) &&
      decide (((1 : ℕ) : ℚ) * prec * Spec.totalArea sliverIn sliver (Spec.system sliverIn sliver start.ph) <
        |Spec.volume sliverIn sliver (Spec.system sliverIn sliver start.ph) s'.ph - Spec.volume sliverIn sliver (Spec.system sliverIn sliver start.ph) start.ph
        - (((List.range 1).map fun i => Spec.precipitation sliverIn (fallen sliverIn storm) (id start.hid + i)).sum
          - Spec.basinArea sliverIn * (recs.map (outletDischarge (asm sliverIn m sliver))).sum
          - (recs.map (Spec.evaporated sliverIn sliver m)).sum
          + (recs.map (Spec.supplied sliverIn sliver m (Spec.endless sliverIn sliver start.ph))).sum
          + (Spec.exchangedVolume sliverIn sliver (Spec.system sliverIn sliver start.ph) s'.ph -
            Spec.exchangedVolume sliverIn sliver (Spec.system sliverIn sliver start.ph) start.ph))|)
  | .error _ => false

/-- **Finding.**  A land cover whose fraction is positive but at most 1e-8 counts as absent (`LandCover::IsNull`), yet its share of
the precipitation is still sent to it: that water is lost.  The fractions are valid and sum to 1, and the balance does not close. -/
theorem _root_.HB.c67_sliver_loses_rain : Spec.AreasGiven sliverIn sliver ∧
    (∀ (u : ℕ) (un : UnitIn ℚ), sliverIn.units[u]? = some un → (un.str.covers.map (sliver u)).sum = 1) ∧
    ¬ Spec.Closes sliverIn (PreDemo.modelOf sliverIn) sliver stormy .euler 1 (· + 1) id (fallen sliverIn storm) := by
  refine ⟨⟨by decide +kernel, ?_⟩, ?_, ?_⟩
  · intro u un _ i _
    unfold sliver
    split <;> norm_num
  · intro u un hu
    have key : ∀ un ∈ sliverIn.units, un.str.covers = [0, 1] := by decide +kernel
    rw [key un (List.mem_of_getElem? hu)]
    norm_num [sliver]
  · intro h
    have hg : gap = true := by decide +kernel
    unfold gap at hg
    dsimp only at hg
    split at hg
    · rename_i recs s' hrun
      rw [Bool.and_eq_true_iff, decide_eq_true_iff, decide_eq_true_iff] at hg
      have := (h 1 start s' recs (fresh _ _ _) hrun hg.1).2
      exact absurd hg.2 (not_lt.2 this)
    · cases hg

end PrecipDemo

end HB
