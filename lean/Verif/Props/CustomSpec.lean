import Verif.Spec.CustomSpec
import Mathlib.Data.List.Forall2
import Mathlib.Data.List.Basic
import Mathlib.Tactic.Common

/-! # C93: declared model structures -/

set_option linter.unusedSectionVars false
set_option linter.unusedSimpArgs false

namespace HB.Custom

open Spec.Custom

theorem when_nil (c : Bool) (m : Msg) : when c m = [] ↔ c = false := by cases c <;> simp [when]

theorem checkKeys_nil (d : List (String × Val)) (valid at_ : List String) : checkKeys d valid at_ = [] ↔ KnownKeys d valid := by
  unfold checkKeys KnownKeys
  rw [List.map_eq_nil_iff, List.filter_eq_nil_iff]
  simp

theorem lacksStr_false (d : List (String × Val)) (k : String) : lacksStr d k = false ↔ ∃ s, Field d k (.str s) := by
  unfold lacksStr Field
  cases h : get d k with
  | none => simp
  | some v => cases v <;> simp [isStr]

theorem strOf_eq {d : List (String × Val)} {k s : String} (h : Field d k (.str s)) : strOf d k = s := by
  unfold Field at h; unfold strOf; rw [h]

theorem bad_str (d : List (String × Val)) (k : String) : bad d k isStr = false ↔ Absent d k ∨ ∃ s, Field d k (.str s) := by
  unfold bad Absent Field
  cases h : get d k with
  | none => simp
  | some v => cases v <;> simp [isStr]

theorem bad_bool (d : List (String × Val)) (k : String) : bad d k isBool = false ↔ Flag d k := by
  unfold bad Flag Absent Field
  cases h : get d k with
  | none => simp
  | some v => cases v <;> simp [isBool]

theorem all_str : ∀ l : List Val, l.all isStr = true ↔ ∃ ts : List String, l = ts.map .str
  | [] => by simp
  | v :: l => by
    rw [List.all_cons, Bool.and_eq_true, all_str l]
    constructor
    · rintro ⟨h, ts, rfl⟩
      cases v <;> simp [isStr] at h
      rename_i s
      exact ⟨s :: ts, rfl⟩
    · rintro ⟨ts, h⟩
      cases ts with
      | nil => simp at h
      | cons t ts => simp only [List.map_cons, List.cons.injEq] at h; exact ⟨by rw [h.1]; rfl, ts, h.2⟩

theorem isStrList_iff (v : Val) : isStrList v = true ↔ ∃ ts : List String, v = .list (ts.map .str) := by
  cases v <;> simp [isStrList]
  rename_i l
  have := all_str l
  simpa using this

theorem bad_strList (d : List (String × Val)) (k : String) :
    bad d k isStrList = false ↔ Absent d k ∨ ∃ ts : List String, Field d k (.list (ts.map .str)) := by
  unfold bad Absent Field
  cases h : get d k with
  | none => simp
  | some v =>
    simp only [Bool.not_eq_eq_eq_not, Bool.not_false, isStrList_iff, reduceCtorEq, false_or, Option.some.injEq]

theorem has_iff (d : List (String × Val)) (k : String) : has d k = false ↔ Absent d k := by
  unfold has Absent; cases get d k <;> simp

theorem targetless_iff (kind : String) : targetless kind = true ↔ (Begins kind "et:" ∨ Begins kind "interception:" ∨ Begins kind "sublimation:") := by
  unfold targetless Begins
  simp only [Bool.or_eq_true, List.isPrefixOf_iff_prefix, or_assoc]

/-- **A process is accepted exactly when it follows the schema.** -/
theorem process_ok (p : Val) (at_ : List String) : validateProcess p at_ = [] ↔ ProcessOk p := by
  unfold validateProcess ProcessOk
  cases p with
  | dict d =>
    simp only [validateProcessDict, List.append_eq_nil_iff, when_nil, checkKeys_nil, lacksStr_false, bad_str, bad_bool, bad_strList]
    constructor
    · rintro ⟨⟨⟨⟨⟨⟨⟨h1, kind, h2⟩, h3⟩, h4⟩, h5⟩, h6⟩, h7⟩, h8⟩
      refine ⟨d, kind, rfl, h1, h2, ?_, h7, h8⟩
      rw [strOf_eq h2] at h6
      unfold TargetOk
      cases ht : has d "target" with
      | false =>
        have a1 := (has_iff d "target").mp ht
        cases ht' : has d "targets" with
        | false =>
          have a2 := (has_iff d "targets").mp ht'
          simp only [ht, ht', Bool.not_false, Bool.true_and, Bool.not_eq_eq_eq_not] at h6
          exact Or.inr (Or.inr ⟨a1, a2, (targetless_iff kind).mp h6⟩)
        | true =>
          rcases h5 with h5 | ⟨ts, h5⟩
          · rw [(has_iff d "targets").mpr h5] at ht'; cases ht'
          · exact Or.inr (Or.inl ⟨ts, h5, a1⟩)
      | true =>
        rw [ht, Bool.true_and] at h3
        rcases h4 with h4 | ⟨t, h4⟩
        · rw [(has_iff d "target").mpr h4] at ht; cases ht
        · exact Or.inl ⟨t, h4, (has_iff d "targets").mp h3⟩
    · rintro ⟨d', kind, he, h1, h2, h3, h7, h8⟩
      cases he
      have hh : ∀ k v, Field d k v → has d k = true := by intro k v h; unfold has; unfold Field at h; rw [h]; rfl
      have key : (has d "target" && has d "targets") = false ∧ (Absent d "target" ∨ ∃ s, Field d "target" (.str s)) ∧
          (Absent d "targets" ∨ ∃ ts : List String, Field d "targets" (.list (ts.map .str))) ∧
          (!has d "target" && !has d "targets" && !targetless (strOf d "kind")) = false := by
        rw [strOf_eq h2]
        rcases h3 with ⟨t, a, b⟩ | ⟨ts, a, b⟩ | ⟨a, b, c⟩
        · have e := (has_iff d "targets").mpr b
          exact ⟨by rw [e]; simp, Or.inr ⟨t, a⟩, Or.inl b, by rw [hh _ _ a]; simp⟩
        · have e := (has_iff d "target").mpr b
          exact ⟨by rw [e]; simp, Or.inl b, Or.inr ⟨ts, a⟩, by rw [hh _ _ a]; simp⟩
        · have e := (has_iff d "target").mpr a
          exact ⟨by rw [e]; simp, Or.inl a, Or.inl b, by rw [(targetless_iff kind).mpr c]; simp⟩
      exact ⟨⟨⟨⟨⟨⟨⟨h1, kind, h2⟩, key.1⟩, key.2.1⟩, key.2.2.1⟩, key.2.2.2⟩, h7⟩, h8⟩
  | _ => simp

theorem place_ok (d : List (String × Val)) :
    bad d "attach_to" isPlace = false ↔ (Absent d "attach_to" ∨ Field d "attach_to" (.str "hydro_unit") ∨ Field d "attach_to" (.str "sub_basin")) := by
  unfold bad Absent Field
  cases h : get d "attach_to" with
  | none => simp
  | some v => cases v <;> simp [isPlace, Decidable.or_iff_not_imp_left]

theorem parameters_ok (d : List (String × Val)) (at_ : List String) :
    parameterMsgs d at_ = [] ↔ (Absent d "parameters" ∨ ∃ ps, Field d "parameters" (.dict ps) ∧ ∀ q ∈ ps, ∃ x, q.2 = .num x) := by
  unfold parameterMsgs Absent Field
  cases h : get d "parameters" with
  | none => simp
  | some v =>
    cases v with
    | dict ps =>
      simp only [List.map_eq_nil_iff, List.filter_eq_nil_iff, reduceCtorEq, false_or, Option.some.injEq, Val.dict.injEq, exists_eq_left']
      refine forall_congr' fun q => forall_congr' fun _ => ?_
      obtain ⟨n, v⟩ := q
      cases v <;> simp [isNum]
    | _ => simp

theorem processes_ok (d : List (String × Val)) (at_ : List String) :
    processMsgs d at_ = [] ↔ (Absent d "processes" ∨ ∃ ps, Field d "processes" (.dict ps) ∧ ∀ q ∈ ps, ProcessOk q.2) := by
  unfold processMsgs Absent Field
  cases h : get d "processes" with
  | none => simp
  | some v =>
    cases v with
    | dict ps =>
      simp only [List.flatMap_eq_nil_iff, reduceCtorEq, false_or, Option.some.injEq, Val.dict.injEq, exists_eq_left', process_ok]
    | _ => simp

/-- **A brick is accepted exactly when it follows the schema.** -/
theorem brick_ok (b : Val) (at_ : List String) : validateBrick b at_ = [] ↔ BrickOk b := by
  unfold validateBrick BrickOk
  cases b with
  | dict d =>
    simp only [validateBrickDict, List.append_eq_nil_iff, when_nil, checkKeys_nil, lacksStr_false, bad_bool, parameters_ok, processes_ok]
    constructor
    · rintro ⟨⟨⟨⟨⟨h1, kind, h2⟩, h3⟩, h4⟩, h5⟩, h6⟩
      refine ⟨d, kind, rfl, h1, h2, ?_, h4, h5, h6⟩
      rw [strOf_eq h2] at h3
      by_cases hk : kind = "land_cover"
      · exact Or.inl hk
      · rw [decide_eq_true hk, Bool.true_and] at h3
        exact Or.inr ((place_ok d).mp h3)
    · rintro ⟨d', kind, he, h1, h2, h3, h4, h5, h6⟩
      cases he
      refine ⟨⟨⟨⟨⟨h1, kind, h2⟩, ?_⟩, h4⟩, h5⟩, h6⟩
      rw [strOf_eq h2]
      rcases h3 with h3 | h3
      · simp [h3]
      · rw [(place_ok d).mpr h3, Bool.and_false]
  | _ => simp

theorem truthy_iff (v : Val) : truthy v = false ↔ v = .null ∨ v = .bool false ∨ v = .num 0 ∨ v = .str "" ∨ v = .list [] ∨ v = .dict [] := by
  cases v <;> simp [truthy]

theorem getOr_of_empty {d : List (String × Val)} {k : String} (x : Val) (h : Missing d k) : getOr d k x = x := by
  unfold Missing Absent Field at h
  unfold getOr
  rcases h with h | h | h | h | h | h | h <;> rw [h] <;> simp [truthy]

/-- Either empty, or the value itself. -/
theorem getOr_cases (d : List (String × Val)) (k : String) (x : Val) : Missing d k ∨ ∃ v, Field d k v ∧ truthy v = true ∧ getOr d k x = v := by
  unfold Missing Absent Field getOr
  cases h : get d k with
  | none => simp
  | some v =>
    cases ht : truthy v with
    | false =>
      left
      have := (truthy_iff v).mp ht
      rcases this with h | h | h | h | h | h <;> simp [h]
    | true => right; exact ⟨v, rfl, ht, by simp [ht]⟩

theorem empty_not_truthy {d : List (String × Val)} {k : String} {v : Val} (h : Missing d k) (hv : Field d k v) : truthy v = false := by
  unfold Missing Absent Field at h; unfold Field at hv
  rw [hv] at h
  rw [truthy_iff]
  simpa using h

theorem options_ok (s : List (String × Val)) : optionMsgs s = [] ↔ (Missing s "options" ∨ ∃ o, Field s "options" (.dict o) ∧ KnownKeys o optionNames) := by
  have hd : defaults.map (·.1) = optionNames := rfl
  unfold optionMsgs
  rcases getOr_cases s "options" (.dict []) with h | ⟨v, hv, ht, he⟩
  · rw [getOr_of_empty _ h]
    simp only [checkKeys_nil, hd]
    exact ⟨fun _ => Or.inl h, fun _ q hq => by simp at hq⟩
  · rw [he]
    have hne : ¬ Missing s "options" := fun h => by rw [empty_not_truthy h hv] at ht; cases ht
    cases v with
    | dict o =>
      simp only [checkKeys_nil, hd]
      constructor
      · intro h; exact Or.inr ⟨o, hv, h⟩
      · rintro (h | ⟨o', h', hk⟩)
        · exact absurd h hne
        · unfold Field at hv h'; rw [hv] at h'; cases h'; exact hk
    | _ =>
      simp only [reduceCtorEq, List.cons_ne_nil, false_iff, not_or, not_exists, not_and]
      refine ⟨hne, fun o' h' => ?_⟩
      unfold Field at hv h'; rw [hv] at h'; cases h'

theorem aliases_ok (s : List (String × Val)) : aliasMsgs s = [] ↔ (Missing s "aliases" ∨ ∃ a, Field s "aliases" (.dict a) ∧ ∀ q ∈ a, AliasOk q.2) := by
  have ha : ∀ a : List (String × Val), ((a.filter fun p => !isStr p.2 && !isStrList p.2).map fun p => (⟨["structure"], .alias p.1⟩ : Msg)) = [] ↔ ∀ q ∈ a, AliasOk q.2 := by
    intro a
    rw [List.map_eq_nil_iff, List.filter_eq_nil_iff]
    refine forall_congr' fun q => forall_congr' fun _ => ?_
    unfold AliasOk
    rw [← isStrList_iff]
    cases q.2 <;> simp [isStr]
  unfold aliasMsgs
  rcases getOr_cases s "aliases" (.dict []) with h | ⟨v, hv, ht, he⟩
  · rw [getOr_of_empty _ h]
    simp only [ha]
    exact ⟨fun _ => Or.inl h, fun _ q hq => by simp at hq⟩
  · rw [he]
    have hne : ¬ Missing s "aliases" := fun h => by rw [empty_not_truthy h hv] at ht; cases ht
    cases v with
    | dict o =>
      simp only [ha]
      constructor
      · intro h; exact Or.inr ⟨o, hv, h⟩
      · rintro (h | ⟨o', h', hk⟩)
        · exact absurd h hne
        · unfold Field at hv h'; rw [hv] at h'; cases h'; exact hk
    | _ =>
      simp only [reduceCtorEq, List.cons_ne_nil, false_iff, not_or, not_exists, not_and]
      refine ⟨hne, fun o' h' => ?_⟩
      unfold Field at hv h'; rw [hv] at h'; cases h'

theorem constraint_ok (i : Nat) (v : Val) : constraintMsgs i v = [] ↔ ConstraintOk v := by
  unfold ConstraintOk
  constructor
  · intro h
    unfold constraintMsgs at h
    split at h
    · rename_i a o b
      refine ⟨a, o, b, rfl, ?_⟩
      rw [when_nil, decide_eq_false_iff_not, not_not] at h
      exact h
    · simp at h
  · rintro ⟨a, o, b, rfl, h⟩
    show when _ _ = []
    rw [when_nil, decide_eq_false_iff_not, not_not]
    exact h

theorem constraintsFrom_ok : ∀ (cs : List Val) (i : Nat), constraintsFrom i cs = [] ↔ ∀ c ∈ cs, ConstraintOk c
  | [], i => by simp [constraintsFrom]
  | c :: cs, i => by simp [constraintsFrom, List.append_eq_nil_iff, constraint_ok, constraintsFrom_ok cs]

theorem constraints_ok (s : List (String × Val)) :
    allConstraintMsgs s = [] ↔ (Missing s "constraints" ∨ ∃ cs, Field s "constraints" (.list cs) ∧ ∀ c ∈ cs, ConstraintOk c) := by
  unfold allConstraintMsgs
  rcases getOr_cases s "constraints" (.list []) with h | ⟨v, hv, ht, he⟩
  · rw [getOr_of_empty _ h]
    simp only [constraintsFrom_ok]
    exact ⟨fun _ => Or.inl h, fun _ q hq => by simp at hq⟩
  · rw [he]
    have hne : ¬ Missing s "constraints" := fun h => by rw [empty_not_truthy h hv] at ht; cases ht
    cases v with
    | list o =>
      simp only [constraintsFrom_ok]
      constructor
      · intro h; exact Or.inr ⟨o, hv, h⟩
      · rintro (h | ⟨o', h', hk⟩)
        · exact absurd h hne
        · unfold Field at hv h'; rw [hv] at h'; cases h'; exact hk
    | _ =>
      simp only [reduceCtorEq, List.cons_ne_nil, false_iff, not_or, not_exists, not_and]
      refine ⟨hne, fun o' h' => ?_⟩
      unfold Field at hv h'; rw [hv] at h'; cases h'

theorem covers_ok (s : List (String × Val)) : badCovers s = false ↔
    (Absent s "allowed_land_cover_types" ∨ Field s "allowed_land_cover_types" .null ∨ ∃ ts : List String, Field s "allowed_land_cover_types" (.list (ts.map .str))) := by
  unfold badCovers Absent Field
  cases h : get s "allowed_land_cover_types" with
  | none => simp
  | some v =>
    have := isStrList_iff v
    cases v <;> simp_all

theorem bricks_ok (s : List (String × Val)) : brickMsgs s = [] ↔ ∃ bs, Field s "bricks" (.dict bs) ∧ bs ≠ [] ∧ ∀ b ∈ bs, BrickOk b.2 := by
  unfold brickMsgs Field
  cases h : get s "bricks" with
  | none => simp
  | some v =>
    cases v with
    | dict bs =>
      simp only [Option.some.injEq, Val.dict.injEq, exists_eq_left']
      cases bs with
      | nil => simp
      | cons b bs => simp [List.flatMap_eq_nil_iff, brick_ok]
    | _ => simp

/-- **A structure is accepted exactly when it follows the schema.** -/
theorem c93_accepts (s : List (String × Val)) : validate s = [] ↔ StructureOk s := by
  unfold validate StructureOk
  simp only [List.append_eq_nil_iff, when_nil, checkKeys_nil, bad_str, covers_ok, options_ok, bricks_ok, aliases_ok, constraints_ok, and_assoc]
  rfl

/-- Otherwise it is refused, with at least one message, whatever the rest. -/
theorem c93_refuses (s kwargs : List (String × Val)) (names : List String) (h : ¬ StructureOk s) :
    ∃ m ms, validate s = m :: ms ∧ customModel s kwargs names = .error (.invalid (m :: ms)) := by
  have : validate s ≠ [] := fun h' => h ((c93_accepts s).mp h')
  cases hv : validate s with
  | nil => exact absurd hv this
  | cons m ms => exact ⟨m, ms, rfl, by unfold customModel; rw [if_pos this, hv]⟩

end HB.Custom
