import Verif.Spec.Assemble
import Verif.Props.Wiring3
import Verif.Props.Balance
import Mathlib.Data.List.Nodup
import Mathlib.Data.List.Pairwise

/-!
# Lemmas on the assembled network
-/

namespace HB

set_option linter.unusedSectionVars false

open HB.Names HB.Wire HB.Asm

namespace Asm

/-! ## Types and classes -/

theorem clsOf_cases (b : Wire.Brick) :
    (b.type = "storage" ∧ clsOf b = .storage) ∨ (b.type = "generic_land_cover" ∧ clsOf b = .genericLandCover) ∨
    (b.type = "ground" ∧ clsOf b = .genericLandCover) ∨ (b.type = "generic" ∧ clsOf b = .genericLandCover) ∨
    (b.type = "open" ∧ clsOf b = .genericLandCover) ∨ (b.type = "glacier" ∧ clsOf b = .glacier) ∨
    (b.type = "snowpack" ∧ clsOf b = .snowpack) ∨ (b.type = "interception_storage" ∧ clsOf b = .interceptionStorage) ∨
    (b.type ∉ Spec.fractionTypes ∧ clsOf b = .storage) := by
  unfold clsOf buildBrick
  by_cases h1 : b.type = "storage"
  · rw [h1]; exact .inl ⟨rfl, rfl⟩
  by_cases h2 : b.type = "generic_land_cover"
  · rw [h2]; exact .inr (.inl ⟨rfl, rfl⟩)
  by_cases h3 : b.type = "ground"
  · rw [h3]; exact .inr (.inr (.inl ⟨rfl, rfl⟩))
  by_cases h4 : b.type = "generic"
  · rw [h4]; exact .inr (.inr (.inr (.inl ⟨rfl, rfl⟩)))
  by_cases h5 : b.type = "open"
  · rw [h5]; exact .inr (.inr (.inr (.inr (.inl ⟨rfl, rfl⟩))))
  by_cases h6 : b.type = "glacier"
  · rw [h6]; exact .inr (.inr (.inr (.inr (.inr (.inl ⟨rfl, rfl⟩)))))
  by_cases h7 : b.type = "snowpack"
  · rw [h7]; exact .inr (.inr (.inr (.inr (.inr (.inr (.inl ⟨rfl, rfl⟩))))))
  by_cases h8 : b.type = "interception_storage"
  · rw [h8]; exact .inr (.inr (.inr (.inr (.inr (.inr (.inr (.inl ⟨rfl, rfl⟩)))))))
  · refine .inr (.inr (.inr (.inr (.inr (.inr (.inr (.inr ⟨?_, ?_⟩)))))))
    · simp [Spec.fractionTypes, h2, h3, h4, h5, h6, h7, h8]
    · have : brickMap.lookup b.type = none := by
        simp [brickMap, List.lookup, beq_false_of_ne h1, beq_false_of_ne h2, beq_false_of_ne h3, beq_false_of_ne h4, beq_false_of_ne h5,
          beq_false_of_ne h6, beq_false_of_ne h7, beq_false_of_ne h8]
      rw [this]

theorem canHave_type (b : Wire.Brick) : canHaveFraction (clsOf b) = true ↔ b.type ∈ Spec.fractionTypes := by
  rcases clsOf_cases b with h | h | h | h | h | h | h | h | h <;> obtain ⟨h1, h2⟩ := h <;> rw [h2]
  case inr.inr.inr.inr.inr.inr.inr.inr => simp [canHaveFraction, h1]
  all_goals rw [h1]; decide

theorem isCover_type (b : Wire.Brick) : isCover (clsOf b) = true ↔ b.type ∈ Spec.coverTypes := by
  rcases clsOf_cases b with h | h | h | h | h | h | h | h | h <;> obtain ⟨h1, h2⟩ := h <;> rw [h2]
  case inr.inr.inr.inr.inr.inr.inr.inr =>
    simp only [Spec.fractionTypes, List.mem_cons, List.not_mem_nil, or_false, not_or] at h1
    simp [isCover, Spec.coverTypes, h1]
  all_goals rw [h1]; decide

theorem surface_type (b : Wire.Brick) :
    (clsOf b = .snowpack ∨ clsOf b = .interceptionStorage) ↔ b.type ∈ Spec.surfaceTypes := by
  rcases clsOf_cases b with h | h | h | h | h | h | h | h | h <;> obtain ⟨h1, h2⟩ := h <;> rw [h2]
  case inr.inr.inr.inr.inr.inr.inr.inr =>
    simp only [Spec.fractionTypes, List.mem_cons, List.not_mem_nil, or_false, not_or] at h1
    simp [Spec.surfaceTypes, h1]
  all_goals rw [h1]; decide

theorem fraction_iff (t : String) : t ∈ Spec.fractionTypes ↔ t ∈ Spec.coverTypes ∨ t ∈ Spec.surfaceTypes := by
  simp only [Spec.fractionTypes, Spec.coverTypes, Spec.surfaceTypes, List.mem_cons, List.not_mem_nil, or_false]
  constructor
  · rintro (h | h | h | h | h | h | h) <;> simp [h]
  · rintro ((h | h | h | h | h) | h | h) <;> simp [h]

theorem storesOf_type (b : Wire.Brick) : (storesOf (clsOf b)).map (·.1) = Spec.storesOfType b.type := by
  rcases clsOf_cases b with h | h | h | h | h | h | h | h | h <;> obtain ⟨h1, h2⟩ := h <;> rw [h2]
  case inr.inr.inr.inr.inr.inr.inr.inr =>
    simp only [Spec.fractionTypes, List.mem_cons, List.not_mem_nil, or_false, not_or] at h1
    simp [Spec.storesOfType, storesOf, h1]
  all_goals rw [h1]; decide

theorem storesOf_static (b : Wire.Brick) (h : b.type ≠ "snowpack") : ∀ s ∈ storesOf (clsOf b), s.2 = false := by
  rcases clsOf_cases b with h' | h' | h' | h' | h' | h' | h' | h' | h' <;> obtain ⟨h1, h2⟩ := h' <;> rw [h2]
  case inr.inr.inr.inr.inr.inr.inl => exact absurd h1 h
  all_goals decide

theorem categoryOf_type (b : Wire.Brick) : categoryOf (clsOf b) = Spec.kindOf b.type := by
  rcases clsOf_cases b with h | h | h | h | h | h | h | h | h <;> obtain ⟨h1, h2⟩ := h <;> rw [h2]
  case inr.inr.inr.inr.inr.inr.inr.inr =>
    simp only [Spec.fractionTypes, List.mem_cons, List.not_mem_nil, or_false, not_or] at h1
    simp [Spec.kindOf, categoryOf, h1]
  all_goals rw [h1]; decide

theorem isDirect_iff (b : Wire.Brick) : isDirect b = true ↔ Spec.Direct b := by
  simp [isDirect, Spec.Direct, canHave_type]

/-- The store a process of a buildable brick works on. -/
theorem procStore_eq {b : Wire.Brick} (hb : Spec.BrickOK b) {p : Wire.Proc} (hp : p ∈ b.procs) :
    procStore b p = Spec.drawsFrom b p ∧ procStore b p ∈ Spec.storesOfType b.type := by
  obtain ⟨pc, st, hn, hs⟩ := hb.2 p hp
  have hbuild : buildProcess p.type (categoryOf (clsOf b)) = .ok (pc, st, p.type == "overflow") := by
    unfold buildProcess
    have := ((c52_processes p.type).1 (categoryOf (clsOf b)) pc st).2 ⟨hn, by rw [categoryOf_type]; exact hs⟩
    rw [this]
  have h1 : procStore b p = st := by unfold procStore; rw [hbuild]
  rw [h1]
  have hk : (b.type = "snowpack" ∧ Spec.kindOf b.type = .snowpack) ∨ (b.type = "glacier" ∧ Spec.kindOf b.type = .glacier) ∨
      (b.type ≠ "snowpack" ∧ b.type ≠ "glacier" ∧ Spec.kindOf b.type = .other) := by
    unfold Spec.kindOf
    by_cases h1 : b.type = "snowpack"
    · simp [h1]
    · by_cases h2 : b.type = "glacier" <;> simp [h1, h2]
  unfold Spec.drawsFrom Spec.storesOfType
  generalize p.type = t at hn
  rcases hk with ⟨h2, h3⟩ | ⟨h2, h3⟩ | ⟨h2, h4, h3⟩ <;> rw [h3] at hs
  · rw [h2]
    cases pc <;> simp only [Spec.processNames, List.mem_cons, List.not_mem_nil, or_false] at hn <;>
      simp [Spec.storeFor] at hs <;> subst hs <;>
      first
      | (subst hn; decide)
      | (rcases hn with hn | hn <;> subst hn <;> decide)
  · rw [h2]
    cases pc <;> simp only [Spec.processNames, List.mem_cons, List.not_mem_nil, or_false] at hn <;>
      simp [Spec.storeFor] at hs <;> subst hs <;>
      first
      | (subst hn; decide)
      | (rcases hn with hn | hn <;> subst hn <;> decide)
  · simp only [h2, h4, if_false]
    cases pc <;> simp [Spec.storeFor] at hs <;> subst hs <;> simp

/-! ## Numbers -/

theorem storeCode_lt (s : Store) : storeCode s < 3 := by cases s <;> decide

theorem storeCode_inj {s s' : Store} (h : storeCode s = storeCode s') : s = s' := by cases s <;> cases s' <;> simp_all [storeCode]

/-- Is the component a brick? -/
def IsBrick : Comp → Prop
  | .unitBrick _ _ | .basinBrick _ => True
  | _ => False

theorem contId_inj {c c' : Comp} {s s' : Store} (hc : IsBrick c) (hc' : IsBrick c') (h : contId c s = contId c' s') :
    c = c' ∧ s = s' := by
  have h1 := storeCode_lt s
  have h2 := storeCode_lt s'
  unfold contId at h
  have h3 : compCode c = compCode c' := by omega
  have h4 : storeCode s = storeCode s' := by omega
  refine ⟨?_, storeCode_inj h4⟩
  cases c <;> cases c' <;> simp only [IsBrick] at hc hc' <;> simp only [compCode, Nat.pair_eq_pair] at h3
  · obtain ⟨h3, h5⟩ := h3
    simp only [Nat.add_right_cancel_iff] at h3
    rw [h3, h5]
  · omega
  · omega
  · rw [h3.2]

/-- The brick of a container number. -/
def compOf (n : ℕ) : Comp :=
  match Nat.unpair (n / 3) with
  | (0, i) => .basinBrick i
  | (u + 1, i) => .unitBrick u i

theorem compOf_contId {c : Comp} (hc : IsBrick c) (s : Store) : compOf (contId c s) = c := by
  have h1 : contId c s / 3 = compCode c := by
    have := storeCode_lt s
    unfold contId; omega
  unfold compOf
  rw [h1]
  cases c <;> simp only [IsBrick] at hc <;> simp [compCode, Nat.unpair_pair]

end Asm

end HB
