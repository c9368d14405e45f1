import Verif.Model.Topology
import Mathlib.Tactic.Common

/-! # C11: solved bricks never feed bricks computed directly -/

namespace HB

/-- The brick is integrated by the solver: a unit brick that needs it, or any sub-basin brick. -/
def Spec.IsSolved (m : RawModel) (b : RawBrick) : Prop :=
  (∃ u ∈ m.units, b ∈ u ∧ b.needsSolver = true) ∨ b ∈ m.basin

/-- The brick is processed in the direct phase. -/
def Spec.IsDirect (m : RawModel) (b : RawBrick) : Prop :=
  ∃ u ∈ m.units, b ∈ u ∧ b.needsSolver = false

/-- Brick `b` sends a flux to the brick `t`. -/
def Spec.Sends (b t : RawBrick) : Prop := ∃ p ∈ b.procs, RawTarget.brick t.id ∈ p

/-- **C11.** The check accepts a model if and only if no solved brick sends a flux to a brick computed
directly. Hypotheses: bricks have distinct identities (they are distinct objects) and sub-basin bricks
keep the default `NeedsSolver` (only unit bricks can be declared as computed directly,
ModelBuilder.cpp:215-217). -/
theorem c11_topology (m : RawModel) (hid : ((m.units.flatten ++ m.basin).map (·.id)).Nodup)
    (hbasin : ∀ b ∈ m.basin, b.needsSolver = true) :
    m.validate = .ok () ↔
      ∀ b t, Spec.IsSolved m b → Spec.IsDirect m t → ¬ Spec.Sends b t := by
  have hfind : ∀ t ∈ m.units.flatten ++ m.basin, m.find t.id = some t := by
    intro t ht
    unfold RawModel.find
    generalize m.units.flatten ++ m.basin = l at hid ht
    induction l with
    | nil => simp at ht
    | cons a l ih =>
      rw [List.map_cons, List.nodup_cons] at hid
      rcases List.mem_cons.1 ht with rfl | h
      · simp
      · have hne : a.id ≠ t.id := fun e => hid.1 (e ▸ List.mem_map_of_mem h)
        simp [hne, ih hid.2 h]
  have hsolved : ∀ b, b ∈ m.iterable ↔ Spec.IsSolved m b := by
    intro b
    simp [RawModel.iterable, Spec.IsSolved, List.mem_append, List.mem_flatMap, List.mem_filter]
  unfold RawModel.validate
  constructor
  · intro h b t hb ht ⟨p, hp, hmem⟩
    split at h
    · simp at h
    · rename_i hn
      apply hn
      rw [List.any_eq_true]
      refine ⟨b, (hsolved b).2 hb, ?_⟩
      rw [List.any_eq_true]
      refine ⟨p, hp, ?_⟩
      rw [List.any_eq_true]
      obtain ⟨u, hu, htu, hns⟩ := ht
      refine ⟨_, hmem, ?_⟩
      simp [hfind t (List.mem_append.2 (Or.inl (List.mem_flatten.2 ⟨u, hu, htu⟩))), hns]
  · intro h
    split
    · rename_i hy
      exfalso
      rw [List.any_eq_true] at hy
      obtain ⟨b, hb, hy⟩ := hy
      rw [List.any_eq_true] at hy
      obtain ⟨p, hp, hy⟩ := hy
      rw [List.any_eq_true] at hy
      obtain ⟨t, ht, hy⟩ := hy
      cases t with
      | brick id =>
        cases hf : m.find id with
        | none => simp [hf] at hy
        | some tb =>
          simp only [hf, Bool.not_eq_true'] at hy
          have hmem := List.mem_of_find?_eq_some hf
          have hide : tb.id = id := by simpa using List.find?_some hf
          have hdir : Spec.IsDirect m tb := by
            rcases List.mem_append.1 hmem with hm | hm
            · obtain ⟨u, hu, htu⟩ := List.mem_flatten.1 hm
              exact ⟨u, hu, htu, hy⟩
            · rw [hbasin tb hm] at hy; simp at hy
          exact h b tb ((hsolved b).1 hb) hdir ⟨p, hp, by rw [hide]; exact ht⟩
      | outlet => simp at hy
      | atmosphere => simp at hy
      | splitter _ => simp at hy
    · rfl

/-- Witnesses: ground (direct) → storage → outlet is accepted, storage → ground is refused. -/
example : (RawModel.mk [[⟨0, false, [[.brick 1]]⟩, ⟨1, true, [[.outlet], [.atmosphere]]⟩]] []).validate = .ok () ∧
    (RawModel.mk [[⟨0, false, [[.brick 1]]⟩, ⟨1, true, [[.outlet], [.brick 0]]⟩]] []).validate = .error .topology := by
  decide +kernel

/-- Scope: the check does not see water passing through a splitter. Storage → splitter is accepted
whatever the splitter feeds. -/
theorem c11_splitter_not_checked :
    (RawModel.mk [[⟨0, false, [[.brick 1]]⟩, ⟨1, true, [[.splitter 0]]⟩]] []).validate = .ok () := by
  decide +kernel

end HB
