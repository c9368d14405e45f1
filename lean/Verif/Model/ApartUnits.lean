import Verif.Model.ApartSolve
import Verif.Model.AssembleNet

/-!
# The units of a built model are apart

Used for C72: in a model without lateral transport, nothing flows into a unit from the rest.
-/

set_option linter.unusedSectionVars false

namespace HB

open HB.Names HB.Wire

variable {K : Type} [Field K] [LinearOrder K] [IsStrictOrderedRing K]

namespace Spec

/-- A component of unit `u`. -/
def OfUnit (u : ℕ) (c : Comp) : Prop := (∃ i, c = .unitBrick u i) ∨ ∃ i, c = .unitSplit u i

/-- Unit `u` as a part of the model: the stores of its bricks and the fluxes leaving its bricks and splitters. -/
def unitPart (m : Wire.Model K) (u : ℕ) : Part where
  C := fun c => ∃ i s, c = Asm.contId (.unitBrick u i) s
  F := fun k => ∃ f : Wire.Flux K, m.net.outs[k]? = some f ∧ OfUnit u f.src

end Spec

open Spec

namespace Asm

/-- Only a component of the unit feeds a brick of the unit. -/
theorem fed_by_unit {inp : Input K} {f : Wire.Flux K} (hk : Kind inp f) {u i : ℕ} (h : f.dst = .comp (.unitBrick u i)) : OfUnit u f.src := by
  have key : ∀ {v un t}, Denotes inp v un t (.comp (.unitBrick u i)) → v = u := by
    intro v un t hden
    obtain ⟨_, b, hb⟩ := denotes_brick (c := .unitBrick u i) trivial hden
    cases hb
    rfl
  cases hk with
  | unit hs ho hp hw => have := key (h ▸ hw.dest); subst this; exact .inl ⟨_, hs⟩
  | unitAir hs hu hb hp ha => rw [ha.dest] at h; cases h
  | basin hs ho hp hw => have := h ▸ hw.dest; cases this
  | basinAir hs hb hp ha => rw [ha.dest] at h; cases h
  | split hs hu hsp hw => have := key (h ▸ hw.dest); subst this; exact .inr ⟨_, hs⟩
  | basinSplit hs hsp hw => have := h ▸ hw.dest; cases this

/-- A component of a unit feeds only that unit or, with a flux that cannot be limited, a brick of the sub-basin. -/
theorem feeds_unit {inp : Input K} {f : Wire.Flux K} (hk : Kind inp f) {u : ℕ} (hs : OfUnit u f.src) {c : Comp} (h : f.dst = .comp c)
    (hc : IsBrick c) : (∃ i, c = .unitBrick u i) ∨ f.static = true := by
  cases c with
  | unitBrick v i =>
    rcases hs with ⟨j, hs⟩ | ⟨j, hs⟩ <;> rcases fed_by_unit hk h with ⟨j', h'⟩ | ⟨j', h'⟩ <;> rw [hs] at h' <;> cases h' <;> exact .inl ⟨i, rfl⟩
  | basinBrick i =>
    right
    cases hk with
    | unit hs' ho hp hw => exact hw.static.2 (.inl (by rw [h]; trivial))
    | unitAir hs' hu hb hp ha => rw [ha.dest] at h; cases h
    | basin hs' ho hp hw => rcases hs with ⟨j, hs⟩ | ⟨j, hs⟩ <;> rw [hs] at hs' <;> cases hs'
    | basinAir hs' hb hp ha => rw [ha.dest] at h; cases h
    | split hs' hu hsp hw => exact hw.static (by rw [h]; exact fun hh => by cases hh)
    | basinSplit hs' hsp hw => rcases hs with ⟨j, hs⟩ | ⟨j, hs⟩ <;> rw [hs] at hs' <;> cases hs'
  | unitSplit _ _ => exact hc.elim
  | basinSplit _ => exact hc.elim

variable {inp : Input K} {m : Wire.Model K}

theorem target_unit (ext : ℕ → ℕ → K) {k : ℕ} {f : Wire.Flux K} (hf : m.net.outs[k]? = some f) {c : ℕ} (ht : ((asm inp m ext).flux k).target = .cont c) :
    ∃ x : Comp × Store, f.dst = .comp x.1 ∧ IsBrick x.1 ∧ c = contId x.1 x.2 := by
  rw [flux_some hf, target_eq] at ht
  cases hx : Spec.targetOf f with
  | none => rw [hx] at ht; cases ht
  | some x =>
    rw [hx] at ht
    simp only [Option.elim, Target.cont.injEq] at ht
    obtain ⟨h1, h2⟩ := targetOf_some hx
    exact ⟨x, h1, h2, ht.symm⟩

theorem not_ofUnit {u : ℕ} {c : Comp} (h : ∀ i, c ≠ .unitBrick u i) (hc : IsBrick c) : ¬ OfUnit u c := by
  rintro (⟨i, rfl⟩ | ⟨i, rfl⟩)
  · exact h i rfl
  · exact hc

theorem not_in_unit {u : ℕ} {c : Comp} (h : ∀ i, c ≠ .unitBrick u i) (hc : IsBrick c) (s : Store) : ¬ (unitPart m u).C (contId c s) := by
  rintro ⟨i, s', he⟩
  exact h i (contId_inj (c' := .unitBrick u i) hc trivial he).1

theorem inside_brick (u i : ℕ) (b : Wire.Brick) (x : Bool) : (unitPart m u).Inside (mkBrick m.net (.unitBrick u i) b x) := by
  refine ⟨?_, ?_, ?_⟩
  · intro c hc
    obtain ⟨s, _, rfl⟩ := List.mem_map.1 hc
    exact ⟨i, s.1, rfl⟩
  · intro p hp
    obtain ⟨pj, _, rfl⟩ := List.mem_map.1 hp
    exact ⟨i, _, rfl⟩
  · intro p hp k hk
    obtain ⟨pj, _, rfl⟩ := List.mem_map.1 hp
    obtain ⟨f, hf, hs, _⟩ := mem_ids.1 hk
    exact ⟨f, hf, .inl ⟨i, hs⟩⟩

/-- A flux of another component neither belongs to the unit nor feeds it. -/
theorem other_flux (hk : ∀ f ∈ m.net.outs, Kind inp f) (ext : ℕ → ℕ → K) {u k : ℕ} {f : Wire.Flux K} (hf : m.net.outs[k]? = some f)
    (hs : ¬ OfUnit u f.src) : ¬ (unitPart m u).F k ∧ ∀ c, ((asm inp m ext).flux k).target = .cont c → ¬ (unitPart m u).C c := by
  constructor
  · rintro ⟨f', hf', h'⟩
    rw [hf] at hf'
    cases hf'
    exact hs h'
  · intro c ht hC
    obtain ⟨⟨d, s⟩, h1, h2, rfl⟩ := target_unit ext hf ht
    obtain ⟨i, s', he⟩ := hC
    obtain ⟨rfl, rfl⟩ := contId_inj (c' := .unitBrick u i) h2 trivial he
    exact hs (fed_by_unit (hk f (List.mem_of_getElem? hf)) h1)

theorem outside_brick (hk : ∀ f ∈ m.net.outs, Kind inp f) (ext : ℕ → ℕ → K) {u : ℕ} {c : Comp} (hu : ∀ i, c ≠ .unitBrick u i) (hc : IsBrick c)
    (b : Wire.Brick) (x : Bool) : (unitPart m u).Outside (asm inp m ext) (mkBrick m.net c b x) := by
  refine ⟨?_, ?_, ?_⟩
  · intro e he
    obtain ⟨s, _, rfl⟩ := List.mem_map.1 he
    exact not_in_unit hu hc _
  · intro p hp
    obtain ⟨pj, _, rfl⟩ := List.mem_map.1 hp
    exact not_in_unit hu hc _
  · intro p hp k hkk
    obtain ⟨pj, _, rfl⟩ := List.mem_map.1 hp
    obtain ⟨f, hf, hs, _⟩ := mem_ids.1 hkk
    obtain ⟨h1, h2⟩ := other_flux hk ext hf (u := u) (by rw [hs]; exact not_ofUnit hu hc)
    exact ⟨h1, fun c hc _ => h2 c hc⟩

/-- Without lateral transport, every unit of the built model is apart. -/
theorem unit_apart (hd : Spec.Distinct inp) (h : build inp = .ok m) (hlat : ∀ u un i b o, Spec.UnitOutput inp u un i b o → o.target ≠ "lateral")
    (ext : ℕ → ℕ → K) (u : ℕ) : Apart (asm inp m ext) (unitPart m u) := by
  have hk : ∀ f ∈ m.net.outs, Kind inp f := fun f hf => kinds hd h hlat hf
  have pick : ∀ (c : Comp) (b : Wire.Brick) (x : Bool), IsBrick c →
      (unitPart m u).Inside (mkBrick m.net c b x) ∨ (unitPart m u).Outside (asm inp m ext) (mkBrick m.net c b x) := by
    intro c b x hc
    by_cases hu : ∃ i, c = .unitBrick u i
    · obtain ⟨i, rfl⟩ := hu
      exact .inl (inside_brick u i b x)
    · exact .inr (outside_brick hk ext (fun i hi => hu ⟨i, hi⟩) hc b x)
  refine ⟨?_, ?_, ?_, ?_, ?_⟩
  · intro un hun b hb
    obtain ⟨uu, huu, rfl⟩ := List.mem_map.1 hun
    obtain ⟨ib, hib, rfl⟩ := List.mem_map.1 hb
    exact pick _ _ _ trivial
  · intro b hb
    obtain ⟨c, wb, rfl, hw, _⟩ := mem_solver hb
    exact pick _ _ _ (brickOf_isBrick hw)
  · intro un hun sp hsp
    obtain ⟨⟨un', v⟩, huu, rfl⟩ := List.mem_map.1 hun
    obtain ⟨⟨sp', j⟩, hsk, rfl⟩ := List.mem_map.1 hsp
    by_cases hv : v = u
    · subst hv
      left
      intro k hkk
      obtain ⟨f, hf, hs, _⟩ := mem_ids.1 hkk
      exact ⟨f, hf, .inr ⟨_, hs⟩⟩
    · right
      intro k hkk
      obtain ⟨f, hf, hs, _⟩ := mem_ids.1 hkk
      obtain ⟨h1, h2⟩ := other_flux hk ext hf (u := u) (by
        rw [hs]; rintro (⟨i, hi⟩ | ⟨i, hi⟩) <;> cases hi; exact hv rfl)
      exact ⟨h1, fun c hc _ => h2 c hc⟩
  · intro k hkk c ht hC
    obtain ⟨f, hf⟩ : ∃ f, m.net.outs[k]? = some f := ⟨_, List.getElem?_eq_getElem (List.mem_range.1 hkk)⟩
    by_contra hF
    exact (other_flux hk ext hf (u := u) (fun hs => hF ⟨f, hf, hs⟩)).2 c ht hC
  · rintro k - c ht hC ⟨f, hf, hs⟩
    right
    obtain ⟨⟨d, s⟩, h1, h2, rfl⟩ := target_unit ext hf ht
    rw [flux_some hf]
    rcases feeds_unit (hk f (List.mem_of_getElem? hf)) hs h1 h2 with ⟨i, rfl⟩ | h3
    · exact absurd ⟨i, s, rfl⟩ hC
    · exact h3

end Asm

end HB
