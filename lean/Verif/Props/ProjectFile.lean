import Verif.Spec.ProjectFile
import Mathlib.Data.List.Basic
import Mathlib.Tactic.Linarith

/-! # C95: the forcing of a project file -/

set_option linter.unusedSectionVars false
set_option linter.unusedSimpArgs false

namespace HB.Project

open Custom (Val get has truthy getOr)
open Spec

theorem filter_nil_iff {α : Type} (l : List α) (p : α → Bool) : l.filter p = [] ↔ ∀ x ∈ l, p x = false := by
  rw [List.filter_eq_nil_iff]; simp

theorem keyMsgs_nil (d : Dict) (ks : List String) (w : String) : keyMsgs d ks w = [] ↔ Keys d ks := by
  unfold keyMsgs Keys
  rw [List.map_eq_nil_iff, filter_nil_iff]
  simp

theorem strMsgs_nil (d : Dict) (k w : String) : strMsgs d k w = [] ↔ Optional d k IsStr := by
  unfold strMsgs Optional IsStr
  cases h : get d k with
  | none => simp
  | some v => cases v <;> simp

theorem numberMsgs_nil (d : Dict) (k w : String) : numberMsgs d k w = [] ↔ Optional d k IsNum := by
  unfold numberMsgs Optional IsNum
  cases h : get d k with
  | none => simp
  | some v => cases v <;> simp

theorem wordChar_iff (c : Char) : wordChar c = true ↔ (c.isAlphanum = true ∨ c = '_') := by unfold wordChar; simp

/-- The name read is the name meant. -/
theorem paramName_iff (s n : String) : paramName s = some n ↔ RefTo n (.str s) := by
  unfold paramName RefTo
  have key : ∀ l : List Char, s.toList = "param:".toList ++ l → ("param:".toList.isPrefixOf s.toList = true ∧ s.toList.drop 6 = l) := by
    intro l hl
    rw [hl]
    refine ⟨by rw [List.isPrefixOf_iff_prefix]; exact List.prefix_append _ _, ?_⟩
    exact List.drop_left' (by decide)
  constructor
  · intro h
    cases hp : "param:".toList.isPrefixOf s.toList with
    | false => rw [hp] at h; simp at h
    | true =>
      obtain ⟨l, hl⟩ := List.isPrefixOf_iff_prefix.mp hp
      obtain ⟨-, hd⟩ := key l hl.symm
      rw [hp, hd] at h
      cases l with
      | nil => simp at h
      | cons c cs =>
        simp only at h
        split at h
        · rename_i ha
          injection h with h
          subst h
          rw [List.all_eq_true] at ha
          refine ⟨by simp, fun c hc => (wordChar_iff c).mp (ha c (by simpa using hc)), s, by rw [← hl]; simp, rfl⟩
        · cases h
  · rintro ⟨hne, hw, s', hs, hv⟩
    injection hv with hv
    subst hv
    obtain ⟨h1, h2⟩ := key _ hs
    rw [h1, h2]
    cases hn : n.toList with
    | nil => exact absurd hn hne
    | cons c cs =>
      simp only
      rw [if_pos]
      · rw [← hn, String.ofList_toList]
      · rw [← hn, List.all_eq_true]; exact fun c hc => (wordChar_iff c).mpr (hw c hc)

theorem refMsgs_nil (d : Dict) (k w : String) : refMsgs d k w = [] ↔ Optional d k IsRef := by
  unfold refMsgs Optional IsRef IsNum
  cases h : get d k with
  | none => simp
  | some v =>
    cases v with
    | str s =>
      simp only [Option.some.injEq, forall_eq', reduceCtorEq, false_or, exists_false]
      cases hp : paramName s with
      | none =>
        simp only [Option.isSome_none, Bool.false_eq_true, if_false]
        constructor
        · intro h; cases h
        · rintro ⟨n, hn⟩; rw [← paramName_iff, hp] at hn; cases hn
      | some n => simp only [Option.isSome_some, if_true, true_iff]; exact ⟨n, (paramName_iff s n).mp hp⟩
    | null => simp
    | num x => simp
    | bool b => simp [RefTo]
    | list l => simp [RefTo]
    | dict t => simp [RefTo]

/-- What is read under a key. -/
theorem ref_param (d : Dict) (k n : String) : ref d k = some (.param n) ↔ ∃ v, get d k = some v ∧ RefTo n v := by
  unfold ref
  cases h : get d k with
  | none => simp
  | some v =>
    cases v with
    | str s =>
      simp only [Option.map_eq_some_iff, Ref.param.injEq, exists_eq_right, Option.some.injEq, exists_eq_left']
      exact paramName_iff s n
    | _ => simp [RefTo]

theorem ref_isSome (d : Dict) (k : String) : (ref d k).isSome = true ↔ ∃ v, get d k = some v ∧ IsRef v := by
  unfold ref IsRef IsNum
  cases h : get d k with
  | none => simp
  | some v =>
    cases v with
    | str s =>
      simp only [Option.isSome_map, Option.some.injEq, exists_eq_left', reduceCtorEq, exists_false, false_or]
      rw [Option.isSome_iff_exists]
      exact ⟨fun ⟨n, hn⟩ => ⟨n, (paramName_iff s n).mp hn⟩, fun ⟨n, hn⟩ => ⟨n, (paramName_iff s n).mpr hn⟩⟩
    | _ => simp [RefTo]

theorem number_some (d : Dict) (k : String) (x : Int) : number d k = some x ↔ get d k = some (.num x) := by
  unfold number
  cases h : get d k with
  | none => simp
  | some v => cases v <;> simp

theorem str_some (d : Dict) (k s : String) : str d k = some s ↔ get d k = some (.str s) := by
  unfold str
  cases h : get d k with
  | none => simp
  | some v => cases v <;> simp

theorem section_unique {d : Dict} {k : String} {t : Dict} (h : Section d k t) : t = sub d k := by
  unfold sub getOr
  rcases h with h | ⟨rfl, h⟩
  · rw [h]
    simp only
    by_cases ht : truthy (.dict t) = true
    · rw [if_pos ht]
    · rw [if_neg ht]; cases t with
      | nil => rfl
      | cons a b => simp [truthy] at ht
  · cases hg : get d k with
    | none => rfl
    | some v => simp only; rw [h v hg]; rfl

theorem subMsgs_nil (d : Dict) (k w : String) : subMsgs d k w = [] ↔ Section d k (sub d k) := by
  constructor
  · intro h
    unfold subMsgs sub getOr at *
    unfold Section
    cases hg : get d k with
    | none => right; simp
    | some v =>
      rw [hg] at h
      simp only at h ⊢
      by_cases ht : truthy v = true
      · rw [if_pos ht] at h ⊢
        cases v with
        | dict t => left; rfl
        | _ => cases h
      · rw [if_neg ht]
        right; refine ⟨rfl, fun v' hv => ?_⟩
        injection hv with hv; subst hv; simpa using ht
  · intro h
    unfold subMsgs
    unfold sub at h
    unfold getOr at *
    unfold Section at h
    cases hg : get d k with
    | none => rfl
    | some v =>
      simp only [hg] at h ⊢
      by_cases ht : truthy v = true
      · rw [if_pos ht] at h ⊢
        cases v with
        | dict t => rfl
        | _ =>
          exfalso
          rcases h with h | h
          · cases h
          · have := h.2 _ rfl; rw [ht] at this; cases this
      · rw [if_neg ht]

theorem has_iff (d : Dict) (k : String) : has d k = true ↔ get d k ≠ none := by
  unfold has; cases get d k <;> simp

theorem get_mem {d : Dict} {k : String} {v : Val} (h : get d k = some v) : k ∈ d.map (·.1) := by
  unfold Custom.get at h
  rw [Option.map_eq_some_iff] at h
  obtain ⟨p, hp, -⟩ := h
  have h1 := List.find?_some hp
  have h2 := List.mem_of_find?_eq_some hp
  rw [decide_eq_true_eq] at h1
  exact List.mem_map.mpr ⟨p, h2, h1⟩

theorem mem_get {d : Dict} {k : String} (h : k ∈ d.map (·.1)) : get d k ≠ none := by
  unfold Custom.get
  obtain ⟨p, hp, rfl⟩ := List.mem_map.mp h
  rw [Ne, Option.map_eq_none_iff, List.find?_eq_none]
  intro hall
  have := hall p hp
  simp at this

end HB.Project
