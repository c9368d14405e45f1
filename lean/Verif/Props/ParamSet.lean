import Verif.Spec.ParamSet
import Mathlib.Data.List.GetD
import Mathlib.Data.Rat.Defs
import Mathlib.Algebra.Order.Field.Rat
import Mathlib.Tactic.Linarith
import Mathlib.Tactic.LinearCombination

/-!
# C76 — parameter sets: names, ranges, constraints and random draws
-/
set_option linter.unusedSectionVars false

namespace HB

open HB.PSet HB.Spec

section
variable {K : Type} [Field K] [LinearOrder K] [IsStrictOrderedRing K]

/-! ## Ranges -/

theorem checkMinMax_ordered (lo hi : Option (Val K)) (h : checkMinMax lo hi = .ok ()) : Ordered lo hi := by
  constructor
  · rintro l u rfl rfl
    by_contra hc
    rw [checkMinMax, if_pos (not_le.mp hc)] at h
    cases h
  · rintro ls hs rfl rfl i l u hl hu
    rw [checkMinMax] at h
    split at h
    · cases h
    · split at h
      · cases h
      · next hany =>
        by_contra hc
        refine hany (List.any_eq_true.mpr ⟨(l, u), ?_, by simpa using not_le.mp hc⟩)
        exact List.mem_of_getElem? (i := i) (by rw [List.getElem?_zip_eq_some]; exact ⟨hl, hu⟩)

theorem checkList_in (adapt : Bool) : ∀ (ls hs xs ys : List K),
    (∀ (i : ℕ) (l h : K), ls[i]? = some l → hs[i]? = some h → l ≤ h) → checkList adapt ls hs xs = .ok ys →
    ys.length = xs.length ∧ (∀ (i : ℕ) (l h x : K), ls[i]? = some l → hs[i]? = some h → ys[i]? = some x → l ≤ x ∧ x ≤ h) ∧
      (adapt = false → ys = xs) := by
  intro ls
  induction ls with
  | nil => intro hs xs ys _ h; cases h; exact ⟨rfl, by simp, fun _ => rfl⟩
  | cons l ls ih =>
    intro hs xs ys ho h
    rcases hs with _ | ⟨u, hs⟩
    · cases h; exact ⟨rfl, by simp, fun _ => rfl⟩
    rcases xs with _ | ⟨x, xs⟩
    · cases h; exact ⟨rfl, by simp, fun _ => rfl⟩
    rw [checkList] at h
    split at h
    · cases h
    next h1 =>
    split at h
    · cases h
    next h2 =>
    rcases hr : checkList adapt ls hs xs with e | r
    · rw [hr] at h; cases h
    · rw [hr] at h
      cases h
      obtain ⟨hlen, hin, hsame⟩ := ih hs xs r (fun i a b ha hb => ho (i + 1) a b ha hb) hr
      have hlu : l ≤ u := ho 0 l u rfl rfl
      refine ⟨by simp [hlen], ?_, ?_⟩
      · intro i a b y ha hb hy
        rcases i with _ | i
        · simp only [List.getElem?_cons_zero, Option.some.injEq] at ha hb hy
          subst ha hb hy
          split
          · exact ⟨le_refl _, hlu⟩
          · next hx =>
            split
            · exact ⟨hlu, le_refl _⟩
            · next hx' => exact ⟨not_lt.mp hx, not_lt.mp hx'⟩
        · exact hin i a b y ha hb hy
      · intro had
        rw [hsame had]
        subst had
        have n1 : ¬ u < x := fun hh => h1 ⟨hh, rfl⟩
        have n2 : ¬ x < l := fun hh => h2 ⟨hh, rfl⟩
        rw [if_neg n2, if_neg n1]

/-- An accepted value is in range, and is the given one unless adapting was asked for. -/
theorem checkRange_in (adapt : Bool) (lo hi : Option (Val K)) (v w : Val K) (ho : Ordered lo hi)
    (h : checkRange adapt lo hi v = .ok w) : ValIn lo hi w ∧ (adapt = false → w = v) := by
  have scalar : ∀ (lo : Option (Val K)), (∀ ls, lo ≠ some (.list ls)) → Ordered lo hi →
      ((above v hi).bind fun a => if a then if adapt then (match hi with
        | some h => .ok h
        | none => .ok v) else .error .outOfRange
      else (below v lo).bind fun b => if b then if adapt then (match lo with
        | some l => .ok l
        | none => .ok v) else .error .outOfRange
      else .ok v) = .ok w → ValIn lo hi w ∧ (adapt = false → w = v) := by
    intro lo hlo ho h
    rcases hi with _ | hh
    · -- no maximum
      simp only [above, Except.bind, Bool.false_eq_true, if_false] at h
      rcases lo with _ | l
      · simp only [below, Bool.false_eq_true, if_false, Except.ok.injEq] at h
        subst h
        refine ⟨?_, fun _ => rfl⟩
        rcases v with x | xs
        · exact ⟨by simp, by simp⟩
        · intro ls hs hl; cases hl
      rcases l with l | ls
      · rcases v with x | xs
        · simp only [below] at h
          by_cases hx : x < l
          · simp only [hx, decide_true, if_true] at h
            rcases adapt with _ | _
            · cases h
            · cases h
              refine ⟨⟨by rintro a ⟨⟩; exact le_refl _, by simp⟩, by simp⟩
          · simp only [hx, decide_false, Bool.false_eq_true, if_false, Except.ok.injEq] at h
            subst h
            exact ⟨⟨by rintro a ⟨⟩; exact not_lt.mp hx, by simp⟩, fun _ => rfl⟩
        · cases h
      · exact absurd rfl (hlo ls)
    · rcases hh with u | us
      · rcases v with x | xs
        · simp only [above, Except.bind] at h
          by_cases hx : u < x
          · simp only [hx, decide_true, if_true] at h
            rcases adapt with _ | _
            · cases h
            · cases h
              refine ⟨⟨?_, by rintro a ⟨⟩; exact le_refl _⟩, by simp⟩
              rintro a rfl
              exact ho.1 a u rfl rfl
          · simp only [hx, decide_false, Bool.false_eq_true, if_false] at h
            rcases lo with _ | l
            · simp only [below, Bool.false_eq_true, if_false, Except.ok.injEq] at h
              subst h
              exact ⟨⟨by simp, by rintro a ⟨⟩; exact not_lt.mp hx⟩, fun _ => rfl⟩
            rcases l with l | ls
            · simp only [below] at h
              by_cases hy : x < l
              · simp only [hy, decide_true, if_true] at h
                rcases adapt with _ | _
                · cases h
                · cases h
                  refine ⟨⟨by rintro a ⟨⟩; exact le_refl _, ?_⟩, by simp⟩
                  rintro a ⟨⟩
                  exact ho.1 l u rfl rfl
              · simp only [hy, decide_false, Bool.false_eq_true, if_false, Except.ok.injEq] at h
                subst h
                exact ⟨⟨by rintro a ⟨⟩; exact not_lt.mp hy, by rintro a ⟨⟩; exact not_lt.mp hx⟩, fun _ => rfl⟩
            · exact absurd rfl (hlo ls)
        · cases h
      · cases h
  rcases lo with _ | l
  · exact scalar none (by simp) ho h
  rcases l with l | ls
  · exact scalar (some (.num l)) (by simp) ho h
  · rcases hi with _ | (u | hs)
    · rcases v with x | xs <;> cases h
    · rcases v with x | xs <;> cases h
    · rcases v with x | xs
      · cases h
      · unfold checkRange at h
        simp only at h
        rcases hr : checkList adapt ls hs xs with e | r
        · rw [hr] at h; cases h
        · rw [hr] at h
          cases h
          obtain ⟨-, hin, hsame⟩ := checkList_in adapt ls hs xs r (fun i a b ha hb => ho.2 ls hs rfl rfl i a b ha hb) hr
          refine ⟨?_, fun had => by rw [hsame had]⟩
          rintro ls' hs' ⟨⟩ ⟨⟩
          exact hin

/-- A number is never refused when adapting is asked for. -/
theorem checkRange_adapts (lo hi : Option K) (x : K) :
    ∃ w, checkRange true (lo.map .num) (hi.map .num) (.num x) = .ok w := by
  rcases lo with _ | l <;> rcases hi with _ | h <;> simp only [Option.map_some, Option.map_none, checkRange, above, below,
    Except.bind, if_true]
  · exact ⟨_, rfl⟩
  · by_cases hx : h < x
    · exact ⟨_, by simp [hx]; rfl⟩
    · exact ⟨_, by simp [hx]; rfl⟩
  · by_cases hx : x < l
    · exact ⟨_, by simp [hx]; rfl⟩
    · exact ⟨_, by simp [hx]; rfl⟩
  · by_cases hx : h < x
    · exact ⟨_, by simp [hx]; rfl⟩
    · by_cases hy : x < l
      · exact ⟨_, by simp [hx, hy]; rfl⟩
      · exact ⟨_, by simp [hx, hy]; rfl⟩

/-! ## Setting values -/

theorem onlyValues_refl (S : ParamSet K) : OnlyValues S S :=
  ⟨rfl, rfl, fun j p p' h h' => by rw [h] at h'; cases h'; rfl⟩

theorem onlyValues_trans {A B C : ParamSet K} (h1 : OnlyValues A B) (h2 : OnlyValues B C) : OnlyValues A C := by
  refine ⟨h2.1.trans h1.1, h2.2.1.trans h1.2.1, fun j p p' hp hp' => ?_⟩
  have hj : j < B.params.length := by rw [h1.2.1]; exact (List.getElem?_eq_some_iff.mp hp).1
  have e1 := h1.2.2 j p _ hp (List.getElem?_eq_getElem hj)
  have e2 := h2.2.2 j _ p' (List.getElem?_eq_getElem hj) hp'
  rw [e2, e1]

theorem find_of_onlyValues {S S' : ParamSet K} (h : OnlyValues S S') (name : String) : S'.find name = S.find name := by
  have key : S'.params.map (fun p => p.answers name) = S.params.map fun p => p.answers name := by
    refine List.ext_getElem? fun j => ?_
    rw [List.getElem?_map, List.getElem?_map]
    rcases hp : S.params[j]? with _ | p
    · rw [List.getElem?_eq_none_iff] at hp
      rw [List.getElem?_eq_none (by rw [h.2.1]; exact hp)]
    · have hj : j < S'.params.length := by rw [h.2.1]; exact (List.getElem?_eq_some_iff.mp hp).1
      have e := h.2.2 j p _ hp (List.getElem?_eq_getElem hj)
      rw [List.getElem?_eq_getElem hj, Option.map_some, Option.map_some, e]
      rfl
  have h2 : ∀ l : List (Param K), l.findIdx? (fun p => p.answers name) = (l.map fun p => p.answers name).findIdx? id := by
    intro l; rw [List.findIdx?_map]; rfl
  rw [ParamSet.find, ParamSet.find, h2, h2, key]

/-- One value written at a row. -/
theorem write_onlyValues (S : ParamSet K) (j : ℕ) (p : Param K) (hp : S.params[j]? = some p) (w : Val K) :
    OnlyValues S { S with params := S.params.set j { p with value := some w } } := by
  refine ⟨rfl, by simp, fun i q q' hq hq' => ?_⟩
  rw [List.getElem?_set] at hq'
  by_cases hij : j = i
  · subst hij
    rw [hp] at hq; cases hq
    rw [if_pos rfl, if_pos (List.getElem?_eq_some_iff.mp hp).1] at hq'
    cases hq'; rfl
  · rw [if_neg hij, hq] at hq'; cases hq'; rfl

/-- What one key does. -/
theorem setOne_ok {S S' : ParamSet K} {check adapt transformed : Bool} {key : String} {v : Val K}
    (h : S.setOne check adapt transformed key v = .ok S') : ∃ j p w w', S.find key = some j ∧ S.params[j]? = some p ∧
      real transformed p v = .ok w ∧ (if check then checkRange adapt p.lo p.hi w else .ok w) = .ok w' ∧
      S' = { S with params := S.params.set j { p with value := some w' } } := by
  unfold ParamSet.setOne at h
  rcases hf : S.find key with _ | j
  · rw [hf] at h; cases h
  rcases hp : S.params[j]? with _ | p
  · rw [hf] at h; simp only [hp] at h; cases h
  rw [hf] at h
  simp only [hp] at h
  rcases hr : real transformed p v with e | w
  · rw [hr] at h; cases h
  rcases hc : (if check then checkRange adapt p.lo p.hi w else .ok w : Except PSet.Err (Val K)) with e | w'
  · rw [hr] at h; simp only [Except.bind, hc] at h; cases h
  · rw [hr] at h
    simp only [Except.bind, hc] at h
    cases h
    exact ⟨j, p, w, w', rfl, hp, hr, hc, rfl⟩

theorem setValues_onlyValues (check adapt transformed : Bool) :
    ∀ (kvs : List (String × Val K)) (S : ParamSet K), OnlyValues S (S.setValues check adapt transformed kvs).1
  | [], S => onlyValues_refl S
  | (k, v) :: r, S => by
    rw [ParamSet.setValues]
    rcases hs : S.setOne check adapt transformed k v with e | S'
    · exact onlyValues_refl S
    · obtain ⟨j, p, w, w', -, hp, -, -, rfl⟩ := setOne_ok hs
      exact onlyValues_trans (write_onlyValues S j p hp w') (setValues_onlyValues check adapt transformed r _)

/-- Giving values: when it succeeds, every parameter has the value given under its last name in the call (adapted to the range if
asked), within its range, the other parameters keep theirs, and nothing else changes. -/
theorem c76_set_values (adapt transformed : Bool) (kvs : List (String × Val K)) (S S' : ParamSet K)
    (hord : ∀ p ∈ S.params, Ordered p.lo p.hi) (h : S.setValues true adapt transformed kvs = (S', none)) :
    OnlyValues S S' ∧ ∀ (j : ℕ) (p p' : Param K), S.params[j]? = some p → S'.params[j]? = some p' →
      ((∀ kv ∈ kvs, S.find kv.1 ≠ some j) ∧ p'.value = p.value) ∨
      ∃ pre k v post w w', kvs = pre ++ (k, v) :: post ∧ S.find k = some j ∧ (∀ kv ∈ post, S.find kv.1 ≠ some j) ∧
        real transformed p v = .ok w ∧ p'.value = some w' ∧ ValIn p.lo p.hi w' ∧ (adapt = false → w' = w) := by
  induction kvs generalizing S with
  | nil =>
    cases h
    refine ⟨onlyValues_refl _, fun j p p' hp hp' => Or.inl ⟨by simp, ?_⟩⟩
    rw [hp] at hp'; cases hp'; rfl
  | cons kv r ih =>
    obtain ⟨k, v⟩ := kv
    rw [ParamSet.setValues] at h
    rcases hs : S.setOne true adapt transformed k v with e | S1
    · rw [hs] at h; cases h
    rw [hs] at h
    simp only at h
    obtain ⟨i, q, w, w', hf, hq, hr, hc, rfl⟩ := setOne_ok hs
    have ho1 := write_onlyValues S i q hq w'
    obtain ⟨hov, hcell⟩ := ih _ (by
      intro p hp
      obtain ⟨a, ha, rfl⟩ := List.mem_iff_getElem.mp hp
      have ha' : a < S.params.length := by simpa using ha
      have e := ho1.2.2 a _ _ (List.getElem?_eq_getElem ha') (List.getElem?_eq_getElem ha)
      rw [e]
      exact hord S.params[a] (List.getElem_mem ha')) h
    refine ⟨onlyValues_trans ho1 hov, fun j p p' hp hp' => ?_⟩
    have hj : j < S.params.length := (List.getElem?_eq_some_iff.mp hp).1
    have hff := fun name => find_of_onlyValues ho1 name
    have hmid : ∃ p1, ({ S with params := S.params.set i { q with value := some w' } } : ParamSet K).params[j]? = some p1 ∧
        p1 = { p with value := p1.value } ∧ (i ≠ j → p1.value = p.value) ∧ (i = j → p1.value = some w') := by
      refine ⟨_, List.getElem?_eq_getElem (by simpa using hj), ho1.2.2 j p _ hp (List.getElem?_eq_getElem (by simpa using hj)),
        ?_, ?_⟩
      · intro hij
        simp only [List.getElem_set, if_neg hij]
        rw [List.getElem?_eq_getElem hj] at hp; cases hp; rfl
      · intro hij
        simp only [List.getElem_set, if_pos hij]
    obtain ⟨p1, hp1, e1, hother, hsame⟩ := hmid
    rcases hcell j p1 p' hp1 hp' with ⟨hno, hval⟩ | ⟨pre, k2, v2, post, w2, w2', hkvs, hk2, hpost, hr2, hv2, hin2, had2⟩
    · by_cases hij : i = j
      · right
        subst hij
        rw [hq] at hp; cases hp
        refine ⟨[], k, v, r, w, w', rfl, hf, fun kv hkv => ?_, hr, hval.trans (hsame rfl), ?_, ?_⟩
        · rw [← hff]; exact hno kv hkv
        · rw [if_pos rfl] at hc
          exact (checkRange_in adapt _ _ _ _ (hord q (List.mem_of_getElem? hq)) hc).1
        · rw [if_pos rfl] at hc
          exact (checkRange_in adapt _ _ _ _ (hord q (List.mem_of_getElem? hq)) hc).2
      · left
        refine ⟨?_, hval.trans (hother hij)⟩
        intro kv hkv
        rcases List.mem_cons.mp hkv with rfl | hkv
        · rw [hf]; simpa using hij
        · rw [← hff]; exact hno kv hkv
    · right
      refine ⟨(k, v) :: pre, k2, v2, post, w2, w2', by rw [hkvs]; rfl, ?_, ?_, ?_, hv2, ?_, had2⟩
      · rw [← hff]; exact hk2
      · intro kv hkv; rw [← hff]; exact hpost kv hkv
      · rw [e1] at hr2; exact hr2
      · rw [e1] at hin2; exact hin2

/-! ## Names -/

theorem toLower_colon {c : Char} (h : c.toLower = ':') : c = ':' := by
  unfold Char.toLower at h
  split at h
  · next hc =>
    exfalso
    have h2 := congrArg (fun d : Char => d.val.toNat) h
    have h3 : ':'.val.toNat = 58 := rfl
    simp only [h3] at h2
    have hl : c.val.toNat ≥ 65 := hc.1
    have hu : c.val.toNat ≤ 90 := hc.2
    rw [UInt32.toNat_add, show ('a'.val - 'A'.val).toNat = 32 from rfl] at h2
    omega
  · exact h

theorem colon_lower {s : String} (h : ':' ∉ s.toList) : ':' ∉ (lower s).toList := by
  rw [lower, String.toList_ofList, List.mem_map]
  rintro ⟨c, hc, e⟩
  rw [toLower_colon e] at hc
  exact h hc

theorem lower_eq_iff (a b : String) : lower a = lower b ↔ SameText a b := by
  unfold lower SameText
  constructor
  · intro h
    have := congrArg String.toList h
    rwa [String.toList_ofList, String.toList_ofList] at this
  · intro h; rw [h]

theorem answers_iff (p : Param K) (name : String) : p.answers name = true ↔
    (∃ a ∈ p.aliases.iter, SameText name a) ∨ SameText name (p.component ++ ":" ++ p.name) := by
  unfold Param.answers
  rw [Bool.or_eq_true, beq_iff_eq, lower_eq_iff, List.contains_iff_mem, List.mem_map]
  refine or_congr ⟨?_, ?_⟩ Iff.rfl
  · rintro ⟨a, ha, e⟩; exact ⟨a, ha, (lower_eq_iff _ _).mp e.symm⟩
  · rintro ⟨a, ha, e⟩; exact ⟨a, ha, ((lower_eq_iff _ _).mpr e).symm⟩

/-- What accepted definitions give. -/
structure DefInv (S : ParamSet K) : Prop where
  colon : ∀ p ∈ S.params, ∀ a ∈ p.aliases.iter, ':' ∉ a.toList
  whole : ∀ p ∈ S.params, p.aliases.exploded = p.aliases.iter
  apart : ∀ (j k : ℕ) (p q : Param K), j < k → S.params[j]? = some p → S.params[k]? = some q →
    ∀ a ∈ p.aliases.iter, ∀ b ∈ q.aliases.iter, ¬ SameText a b

theorem defInv_append (S : ParamSet K) (h : DefInv S) (p : Param K) (hc : ∀ a ∈ p.aliases.iter, ':' ∉ a.toList)
    (hw : p.aliases.exploded = p.aliases.iter) (hu : S.checkAliases p.aliases = .ok ()) :
    DefInv { S with params := S.params ++ [p] } := by
  refine ⟨?_, ?_, ?_⟩
  · intro q hq
    rcases List.mem_append.mp hq with hq | hq
    · exact h.colon q hq
    · rw [List.mem_singleton] at hq; rw [hq]; exact hc
  · intro q hq
    rcases List.mem_append.mp hq with hq | hq
    · exact h.whole q hq
    · rw [List.mem_singleton] at hq; rw [hq]; exact hw
  · intro j k q r hjk hq hr a ha b hb hab
    rcases Nat.lt_or_ge k S.params.length with hk | hk
    · rw [List.getElem?_append_left hk] at hr
      rw [List.getElem?_append_left (by omega)] at hq
      exact h.apart j k q r hjk hq hr a ha b hb hab
    · rw [List.getElem?_append_right hk] at hr
      have hk0 : k = S.params.length := by
        by_contra hne
        rw [List.getElem?_eq_none (by simp; omega)] at hr; cases hr
      subst hk0
      rw [Nat.sub_self] at hr
      simp only [List.getElem?_cons_zero, Option.some.injEq] at hr
      subst hr
      rw [List.getElem?_append_left hjk] at hq
      unfold ParamSet.checkAliases at hu
      simp only at hu
      split at hu
      · cases hu
      · next hno =>
        refine hno (List.any_eq_true.mpr ⟨b, hb, ?_⟩)
        rw [List.contains_iff_mem, List.mem_map]
        refine ⟨a, List.mem_flatMap.mpr ⟨q, List.mem_of_getElem? hq, ?_⟩, (lower_eq_iff _ _).mpr hab⟩
        rw [h.whole q (List.mem_of_getElem? hq)]
        exact ha

theorem define_ok {S S' : ParamSet K} {component name : String} {a : Aliases} {lo hi default : Option (Val K)}
    {mandatory : Bool} (h : S.define component name a lo hi default mandatory = .ok S') :
    S.checkAliases a = .ok () ∧ checkMinMax lo hi = .ok () ∧
    S' = { S with params := S.params ++ [⟨component, name, a, if mandatory then none else default, lo, hi, none⟩] } := by
  unfold ParamSet.define at h
  rcases h1 : S.checkAliases a with e | ⟨⟩
  · rw [h1] at h; cases h
  rcases h2 : checkMinMax lo hi with e | ⟨⟩
  · rw [h1, h2] at h; cases h
  rw [h1, h2] at h
  cases h
  exact ⟨rfl, rfl, rfl⟩

theorem addData_ok {S S' : ParamSet K} {name : String} {value lo hi : Option (Val K)}
    (h : S.addData name value lo hi = .ok S') : S.checkAliases (.names [name]) = .ok () ∧ checkMinMax lo hi = .ok () ∧
    S' = { S with params := S.params ++ [⟨"data", name, .names [name], value, lo, hi, none⟩] } := by
  unfold ParamSet.addData at h
  rcases h1 : S.checkAliases (.names [name]) with e | ⟨⟩
  · rw [h1] at h; cases h
  rcases h2 : checkMinMax lo hi with e | ⟨⟩
  · rw [h1, h2] at h; cases h
  rw [h1, h2] at h
  cases h
  exact ⟨rfl, rfl, rfl⟩

theorem defined_inv {S : ParamSet K} (h : Defined S) : DefInv S := by
  induction h with
  | empty => exact ⟨by simp, by simp, by simp⟩
  | define S S' component name l lo hi default mandatory _ hc hd ih =>
    obtain ⟨hu, -, rfl⟩ := define_ok hd
    exact defInv_append S ih _ hc rfl hu
  | plain S S' component name lo hi default mandatory _ hd ih =>
    obtain ⟨hu, -, rfl⟩ := define_ok hd
    exact defInv_append S ih _ (by simp [Aliases.iter]) rfl hu
  | data S S' name value lo hi _ hc hd ih =>
    obtain ⟨hu, -, rfl⟩ := addData_ok hd
    exact defInv_append S ih _ (by simp only [Aliases.iter, List.mem_singleton]; rintro a rfl; exact hc) rfl hu
  | constrain S a op b _ ih => exact ⟨ih.colon, ih.whole, ih.apart⟩

theorem find_first (S : ParamSet K) (name : String) (j : ℕ) (p : Param K) (hp : S.params[j]? = some p)
    (ha : p.answers name = true) (hno : ∀ (i : ℕ) (q : Param K), i < j → S.params[i]? = some q → ¬ q.answers name = true) :
    S.find name = some j := by
  obtain ⟨hj, rfl⟩ := List.getElem?_eq_some_iff.mp hp
  rw [ParamSet.find, List.findIdx?_eq_some_iff_getElem]
  exact ⟨hj, ha, fun i hi => hno i _ hi (List.getElem?_eq_getElem (by omega))⟩

/-- An alias stands for the parameter declared with it, whatever its case. -/
theorem c76_alias (S : ParamSet K) (h : Defined S) (j : ℕ) (p : Param K) (hp : S.params[j]? = some p) (a : String)
    (ha : a ∈ p.aliases.iter) (name : String) (hs : SameText name a) : S.find name = some j := by
  have inv := defined_inv h
  refine find_first S name j p hp ((answers_iff p name).mpr (Or.inl ⟨a, ha, hs⟩)) fun i q hi hq hans => ?_
  rcases (answers_iff q name).mp hans with ⟨b, hb, hsb⟩ | hfull
  · exact inv.apart i j q p hi hq hp b hb a ha (hsb.symm.trans hs)
  · have hc := colon_lower (inv.colon p (List.mem_of_getElem? hp) a ha)
    rw [← (lower_eq_iff _ _).mpr hs, (lower_eq_iff _ _).mpr hfull] at hc
    refine hc ?_
    rw [lower, String.toList_ofList, List.mem_map]
    exact ⟨':', by simp [String.toList_append], by decide⟩

/-- The full name stands for the parameter, if no other one has it. -/
theorem c76_full_name (S : ParamSet K) (h : Defined S) (j : ℕ) (p : Param K) (hp : S.params[j]? = some p)
    (honly : ∀ (i : ℕ) (q : Param K), S.params[i]? = some q →
      SameText (q.component ++ ":" ++ q.name) (p.component ++ ":" ++ p.name) → i = j)
    (name : String) (hs : SameText name (p.component ++ ":" ++ p.name)) : S.find name = some j := by
  have inv := defined_inv h
  refine find_first S name j p hp ((answers_iff p name).mpr (Or.inr hs)) fun i q hi hq hans => ?_
  rcases (answers_iff q name).mp hans with ⟨b, hb, hsb⟩ | hfull
  · have hc := colon_lower (inv.colon q (List.mem_of_getElem? hq) b hb)
    rw [← (lower_eq_iff _ _).mpr hsb, (lower_eq_iff _ _).mpr hs] at hc
    refine hc ?_
    rw [lower, String.toList_ofList, List.mem_map]
    exact ⟨':', by simp [String.toList_append], by decide⟩
  · have := honly i q hq (hfull.symm.trans hs); omega

/-! ## Constraints -/

theorem holds_iff (op : String) (x y : K) : holds op x y = true ↔ Relation op x y := by
  unfold holds Relation
  by_cases h1 : op = ">" ∨ op = "gt"
  · rw [if_pos h1]
    have n : ¬ (op = ">=" ∨ op = "ge") ∧ ¬ (op = "<" ∨ op = "lt") ∧ ¬ (op = "<=" ∨ op = "le") := by
      rcases h1 with rfl | rfl <;> decide
    simp [h1, n.1, n.2.1, n.2.2]
  rw [if_neg h1]
  by_cases h2 : op = ">=" ∨ op = "ge"
  · rw [if_pos h2]
    have n : ¬ (op = "<" ∨ op = "lt") ∧ ¬ (op = "<=" ∨ op = "le") := by
      rcases h2 with rfl | rfl <;> decide
    simp [h1, h2, n.1, n.2]
  rw [if_neg h2]
  by_cases h3 : op = "<" ∨ op = "lt"
  · rw [if_pos h3]
    have n : ¬ (op = "<=" ∨ op = "le") := by
      rcases h3 with rfl | rfl <;> decide
    simp [h1, h2, h3, n]
  rw [if_neg h3]
  by_cases h4 : op = "<=" ∨ op = "le"
  · rw [if_pos h4]; simp [h1, h2, h3, h4]
  · rw [if_neg h4]; simp [h1, h2, h3, h4]

theorem get_find {S : ParamSet K} {name : String} {v : Option (Val K)} (h : S.get name = .ok v) : (S.find name).isSome := by
  unfold ParamSet.get at h
  rcases hf : S.find name with _ | j
  · rw [hf] at h; cases h
  · rfl

theorem satisfies_of_stands (S : ParamSet K) (c : String × String × String) (x y : K) (hx : Stands S c.1 x)
    (hy : Stands S c.2.2 y) : S.satisfies c = .ok (holds c.2.1 x y) := by
  unfold ParamSet.satisfies
  have f1 := get_find hx
  have f2 := get_find hy
  rw [if_neg (by rw [Option.isSome_iff_ne_none] at f1 f2; simp [f1, f2]), hx, hy]

theorem satisfies_false (S : ParamSet K) (c : String × String × String) (h : S.satisfies c = .ok false) :
    ∃ x y, Stands S c.1 x ∧ Stands S c.2.2 y ∧ holds c.2.1 x y = false := by
  unfold ParamSet.satisfies at h
  split at h
  · cases h
  · split at h
    · next x y hx hy => exact ⟨x, y, hx, hy, by injection h⟩
    · split at h <;> cases h
    · split at h <;> cases h
    · split at h <;> cases h
    · cases h

theorem constraintsOk_true (S : ParamSet K) : ∀ l, S.constraintsOk l = .ok true → ∀ c ∈ l, S.satisfies c = .ok true
  | [], _ => by simp
  | c :: r, h => by
    rw [ParamSet.constraintsOk] at h
    rcases hc : S.satisfies c with e | b
    · rw [hc] at h; cases h
    rw [hc] at h
    rcases b with _ | _
    · cases h
    · intro d hd
      rcases List.mem_cons.mp hd with rfl | hd
      · exact hc
      · exact constraintsOk_true S r h d hd

theorem constraintsOk_false (S : ParamSet K) : ∀ l, S.constraintsOk l = .ok false → ∃ c ∈ l, S.satisfies c = .ok false
  | [], h => by cases h
  | c :: r, h => by
    rw [ParamSet.constraintsOk] at h
    rcases hc : S.satisfies c with e | b
    · rw [hc] at h; cases h
    rw [hc] at h
    rcases b with _ | _
    · exact ⟨c, List.mem_cons_self, hc⟩
    · obtain ⟨d, hd, he⟩ := constraintsOk_false S r h
      exact ⟨d, List.mem_cons_of_mem _ hd, he⟩

/-- The check of the constraints says whether they hold. -/
theorem c76_constraints (S : ParamSet K) :
    (S.constraintsOk S.constraints = .ok true → Respects S) ∧ (S.constraintsOk S.constraints = .ok false → ¬ Respects S) := by
  constructor
  · intro h c hc x y hx hy
    have := constraintsOk_true S _ h c hc
    rw [satisfies_of_stands S c x y hx hy] at this
    injection this with this
    exact (holds_iff _ _ _).mp this
  · intro h hr
    obtain ⟨c, hc, hs⟩ := constraintsOk_false S _ h
    obtain ⟨x, y, hx, hy, hh⟩ := satisfies_false S c hs
    rw [(holds_iff _ _ _).mpr (hr c hc x y hx hy)] at hh
    cases hh

/-! ## Ranges at all times -/

/-- Bounds in order and values in range. -/
def AllIn (S : ParamSet K) : Prop :=
  ∀ p ∈ S.params, Ordered p.lo p.hi ∧ ∀ v, p.value = some v → ValIn p.lo p.hi v

theorem allIn_write {S : ParamSet K} (h : AllIn S) (j : ℕ) (p : Param K) (hp : S.params[j]? = some p) (q : Param K)
    (hlo : q.lo = p.lo) (hhi : q.hi = p.hi) (hv : ∀ v, q.value = some v → ValIn p.lo p.hi v) :
    AllIn { S with params := S.params.set j q } := by
  intro r hr
  rcases List.mem_or_eq_of_mem_set hr with hr | rfl
  · exact h r hr
  · rw [hlo, hhi]; exact ⟨(h p (List.mem_of_getElem? hp)).1, hv⟩

theorem allIn_append {S : ParamSet K} (h : AllIn S) (p : Param K) (ho : Ordered p.lo p.hi)
    (hv : ∀ v, p.value = some v → ValIn p.lo p.hi v) : AllIn { S with params := S.params ++ [p] } := by
  intro q hq
  rcases List.mem_append.mp hq with hq | hq
  · exact h q hq
  · rw [List.mem_singleton] at hq; rw [hq]; exact ⟨ho, hv⟩

theorem setValues_allIn (adapt transformed : Bool) : ∀ (kvs : List (String × Val K)) (S : ParamSet K), AllIn S →
    AllIn (S.setValues true adapt transformed kvs).1
  | [], _, h => h
  | (k, v) :: r, S, h => by
    rw [ParamSet.setValues]
    rcases hs : S.setOne true adapt transformed k v with e | S'
    · exact h
    · obtain ⟨j, p, w, w', -, hp, -, hc, rfl⟩ := setOne_ok hs
      refine setValues_allIn adapt transformed r _ (allIn_write h j p hp _ rfl rfl ?_)
      rintro u ⟨⟩
      rw [if_pos rfl] at hc
      exact (checkRange_in adapt _ _ _ _ (h p (List.mem_of_getElem? hp)).1 hc).1

theorem uniform_in {a b r : K} (hab : a ≤ b) (h0 : 0 ≤ r) (h1 : r ≤ 1) : a ≤ uniform a b r ∧ uniform a b r ≤ b := by
  unfold uniform
  constructor <;> nlinarith

theorem drawList_in (rnd : ℕ → K) (hr : ∀ i, 0 ≤ rnd i ∧ rnd i ≤ 1) : ∀ (ls hs xs ys : List K) (i : ℕ),
    (∀ (i : ℕ) (l h : K), ls[i]? = some l → hs[i]? = some h → l ≤ h) → drawList rnd i ls hs xs = .ok ys →
    ∀ (k : ℕ) (l h x : K), ls[k]? = some l → hs[k]? = some h → ys[k]? = some x → l ≤ x ∧ x ≤ h := by
  intro ls
  induction ls with
  | nil => intro hs xs ys i _ _; simp
  | cons l ls ih =>
    intro hs xs ys i ho h
    rcases hs with _ | ⟨u, hs⟩
    · simp
    rcases xs with _ | ⟨x, xs⟩
    · cases h
    rw [drawList] at h
    rcases hd : drawList rnd (i + 1) ls hs xs with e | r
    · rw [hd] at h; cases h
    · rw [hd] at h
      cases h
      intro k a b y ha hb hy
      rcases k with _ | k
      · simp only [List.getElem?_cons_zero, Option.some.injEq] at ha hb hy
        subst ha hb hy
        exact uniform_in (ho 0 _ _ rfl rfl) (hr i).1 (hr i).2
      · exact ih hs xs r (i + 1) (fun i a b ha hb => ho (i + 1) a b ha hb) hd k a b y ha hb hy

theorem drawValue_in (rnd : ℕ → K) (hr : ∀ i, 0 ≤ rnd i ∧ rnd i ≤ 1) (p : Param K) (ho : Ordered p.lo p.hi) (w : Val K)
    (h : drawValue rnd p = .ok w) : ValIn p.lo p.hi w := by
  unfold drawValue at h
  split at h
  · next l u hl hu =>
    cases h
    have := uniform_in (ho.1 l u hl hu) (hr 0).1 (hr 0).2
    refine ⟨?_, ?_⟩
    · intro a ha; rw [hl] at ha; cases ha; exact this.1
    · intro a ha; rw [hu] at ha; cases ha; exact this.2
  · next ls hs hl hu =>
    have key : ∀ xs, (drawList rnd 0 ls hs xs).map Val.list = .ok w → ValIn p.lo p.hi w := by
      intro xs hx
      rcases hd : drawList rnd 0 ls hs xs with e | r
      · rw [hd] at hx; cases hx
      · rw [hd] at hx
        cases hx
        intro ls' hs' hl' hs''
        rw [hl] at hl'; rw [hu] at hs''
        cases hl'; cases hs''
        exact drawList_in rnd hr ls hs xs r 0 (fun i a b ha hb => ho.2 ls hs hl hu i a b ha hb) hd
    split at h
    · exact key _ h
    · exact key _ h
    · cases h
  · cases h

theorem drawOne_ok {S S' : ParamSet K} {rnd : ℕ → K} {key : String} (h : S.drawOne rnd key = .ok S') :
    ∃ j p w, S.find key = some j ∧ S.params[j]? = some p ∧ drawValue rnd p = .ok w ∧
      S' = { S with params := S.params.set j { p with value := some w } } := by
  unfold ParamSet.drawOne at h
  rcases hf : S.find key with _ | j
  · rw [hf] at h; cases h
  rcases hp : S.params[j]? with _ | p
  · rw [hf] at h; simp only [hp] at h; cases h
  rw [hf] at h
  simp only [hp] at h
  rcases hr : drawValue rnd p with e | w
  · rw [hr] at h; cases h
  rw [hr] at h
  cases h
  exact ⟨j, p, w, rfl, hp, hr, rfl⟩

/-- What a try may change: the values of the listed parameters. -/
structure Draws (keys : List String) (S S' : ParamSet K) : Prop where
  only : OnlyValues S S'
  keep : ∀ (j : ℕ) (p p' : Param K), S.params[j]? = some p → S'.params[j]? = some p' →
    (∀ key ∈ keys, S.find key ≠ some j) → p'.value = p.value

theorem draws_refl (keys : List String) (S : ParamSet K) : Draws keys S S :=
  ⟨onlyValues_refl S, fun j p p' h h' _ => by rw [h] at h'; cases h'; rfl⟩

theorem draws_trans {keys : List String} {A B C : ParamSet K} (h1 : Draws keys A B) (h2 : Draws keys B C) :
    Draws keys A C := by
  refine ⟨onlyValues_trans h1.only h2.only, fun j p p' hp hp' hk => ?_⟩
  have hj : j < B.params.length := by rw [h1.only.2.1]; exact (List.getElem?_eq_some_iff.mp hp).1
  have e1 := h1.keep j p _ hp (List.getElem?_eq_getElem hj) hk
  have e2 := h2.keep j _ p' (List.getElem?_eq_getElem hj) hp' (by
    intro key hkey; rw [find_of_onlyValues h1.only]; exact hk key hkey)
  rw [e2, e1]

theorem drawOne_draws {S S' : ParamSet K} {rnd : ℕ → K} {key : String} {keys : List String} (hm : key ∈ keys)
    (h : S.drawOne rnd key = .ok S') : Draws keys S S' := by
  obtain ⟨j, p, w, hf, hp, -, rfl⟩ := drawOne_ok h
  refine ⟨write_onlyValues S j p hp w, fun i q q' hq hq' hk => ?_⟩
  have hij : j ≠ i := by rintro rfl; exact hk key hm hf
  rw [List.getElem?_set, if_neg hij, hq] at hq'
  cases hq'; rfl

theorem drawAll_draws (rnd : ℕ → ℕ → K) (keys : List String) : ∀ (l : List String) (k : ℕ) (S : ParamSet K),
    (∀ x ∈ l, x ∈ keys) → Draws keys S (S.drawAll rnd k l).1
  | [], _, S, _ => draws_refl keys S
  | key :: r, k, S, hl => by
    rw [ParamSet.drawAll]
    rcases hs : S.drawOne (rnd k) key with e | S'
    · exact draws_refl keys S
    · exact draws_trans (drawOne_draws (hl key List.mem_cons_self) hs)
        (drawAll_draws rnd keys r (k + 1) S' fun x hx => hl x (List.mem_cons_of_mem _ hx))

theorem drawAll_allIn (rnd : ℕ → ℕ → K) (hr : ∀ k j, 0 ≤ rnd k j ∧ rnd k j ≤ 1) : ∀ (l : List String) (k : ℕ) (S : ParamSet K),
    AllIn S → AllIn (S.drawAll rnd k l).1
  | [], _, _, h => h
  | key :: r, k, S, h => by
    rw [ParamSet.drawAll]
    rcases hs : S.drawOne (rnd k) key with e | S'
    · exact h
    · obtain ⟨j, p, w, -, hp, hw, rfl⟩ := drawOne_ok hs
      refine drawAll_allIn rnd hr r (k + 1) _ (allIn_write h j p hp _ rfl rfl ?_)
      rintro v ⟨⟩
      exact drawValue_in (rnd k) (hr k) p (h p (List.mem_of_getElem? hp)).1 w hw

/-- A complete try leaves the listed parameters in range, whatever they were before. -/
theorem drawAll_in (rnd : ℕ → ℕ → K) (hr : ∀ k j, 0 ≤ rnd k j ∧ rnd k j ≤ 1) : ∀ (l : List String) (k : ℕ) (S S' : ParamSet K),
    (∀ p ∈ S.params, Ordered p.lo p.hi) → S.drawAll rnd k l = (S', none) → ∀ (j : ℕ) (p' : Param K),
    S'.params[j]? = some p' → (∃ key ∈ l, S.find key = some j) → ∃ v, p'.value = some v ∧ ValIn p'.lo p'.hi v
  | [], _, _, _, _, _, _, _, _, ⟨_, hm, _⟩ => by cases hm
  | key :: r, k, S, S', ho, h, i, p', hp', ⟨key', hm, hf'⟩ => by
    rw [ParamSet.drawAll] at h
    rcases hs : S.drawOne (rnd k) key with e | S1
    · rw [hs] at h; cases h
    rw [hs] at h
    simp only at h
    obtain ⟨j, p, w, hf, hp, hw, rfl⟩ := drawOne_ok hs
    have ho1 := write_onlyValues S j p hp w
    have hord : ∀ q ∈ ({ S with params := S.params.set j { p with value := some w } } : ParamSet K).params,
        Ordered q.lo q.hi := by
      intro q hq
      rcases List.mem_or_eq_of_mem_set hq with hq | rfl
      · exact ho q hq
      · exact ho p (List.mem_of_getElem? hp)
    by_cases hmem : ∃ key ∈ r, S.find key = some i
    · obtain ⟨k2, hk2, hk3⟩ := hmem
      exact drawAll_in rnd hr r (k + 1) _ S' hord h i p' hp' ⟨k2, hk2, by rw [find_of_onlyValues ho1]; exact hk3⟩
    · -- only this key names it
      have hkey : key' = key := by
        rcases List.mem_cons.mp hm with rfl | hm
        · rfl
        · exact absurd ⟨key', hm, hf'⟩ hmem
      subst hkey
      have hji : j = i := Option.some.inj (hf.symm.trans hf')
      subst hji
      have hd := drawAll_draws rnd r r (k + 1)
        ({ S with params := S.params.set j { p with value := some w } } : ParamSet K) fun x hx => hx
      rw [h] at hd
      have hj : j < S.params.length := (List.getElem?_eq_some_iff.mp hp).1
      have hq : ({ S with params := S.params.set j { p with value := some w } } : ParamSet K).params[j]? =
          some { p with value := some w } := by
        simp only [List.getElem?_set, if_pos hj, if_true]
      have e1 := hd.keep j _ p' hq hp' (by
        intro key2 hk2 hk3
        rw [find_of_onlyValues ho1] at hk3
        exact hmem ⟨key2, hk2, hk3⟩)
      have e2 := hd.only.2.2 j _ p' hq hp'
      refine ⟨w, e1, ?_⟩
      have hin := drawValue_in (rnd k) (hr k) p (ho p (List.mem_of_getElem? hp)) w hw
      rw [e2]
      exact hin

theorem randomLoop_allIn (rnd : ℕ → ℕ → ℕ → K) (hr : ∀ i k j, 0 ≤ rnd i k j ∧ rnd i k j ≤ 1) (keys : List String) :
    ∀ (fuel i : ℕ) (S : ParamSet K), AllIn S → AllIn (S.randomLoop rnd keys i fuel).1
  | 0, _, _, h => h
  | fuel + 1, i, S, h => by
    have hd := drawAll_allIn (rnd i) (hr i) keys 0 S h
    rw [ParamSet.randomLoop]
    rcases hs : S.drawAll (rnd i) 0 keys with ⟨S', _ | e⟩
    · rw [hs] at hd
      simp only
      rcases hc : S'.constraintsOk S'.constraints with e | (_ | _)
      · exact hd
      · simp only
        split
        · exact hd
        · exact randomLoop_allIn rnd hr keys fuel (i + 1) S' hd
      · exact hd
    · rw [hs] at hd; exact hd

theorem drawAll_err (rnd : ℕ → ℕ → K) : ∀ (l : List String) (k : ℕ) (S S' : ParamSet K),
    S.drawAll rnd k l = (S', some .unsatisfied) → False
  | [], _, _, _, h => by cases h
  | key :: r, k, S, S', h => by
    rw [ParamSet.drawAll] at h
    rcases hs : S.drawOne (rnd k) key with e | S1
    · rw [hs] at h
      injection h with _ h2
      injection h2 with h2
      subst h2
      unfold ParamSet.drawOne at hs
      have hval : ∀ p, drawValue (rnd k) p ≠ .error .unsatisfied := by
        intro p hp
        unfold drawValue at hp
        have hlist : ∀ (ls hs xs : List K) (i : ℕ), drawList (rnd k) i ls hs xs ≠ .error .unsatisfied := by
          intro ls
          induction ls with
          | nil => intro hs xs i h; cases h
          | cons l ls ih =>
            intro hs xs i h
            rcases hs with _ | ⟨u, hs⟩
            · cases h
            rcases xs with _ | ⟨x, xs⟩
            · cases h
            rw [drawList] at h
            rcases hd : drawList (rnd k) (i + 1) ls hs xs with e | r
            · rw [hd] at h
              injection h with h
              subst h
              exact ih hs xs (i + 1) hd
            · rw [hd] at h; cases h
        have hmap : ∀ (ls hs xs : List K), (drawList (rnd k) 0 ls hs xs).map Val.list ≠ .error .unsatisfied := by
          intro ls hs xs h
          rcases hd : drawList (rnd k) 0 ls hs xs with e | r
          · rw [hd] at h
            injection h with h
            subst h
            exact hlist _ _ _ _ hd
          · rw [hd] at h; cases h
        split at hp
        · cases hp
        · split at hp
          · exact hmap _ _ _ hp
          · exact hmap _ _ _ hp
          · cases hp
        · cases hp
      split at hs
      · cases hs
      · split at hs
        · cases hs
        · next p _ =>
          rcases hd : drawValue (rnd k) p with e | w
          · rw [hd] at hs
            injection hs with hs
            subst hs
            exact hval p hd
          · rw [hd] at hs; cases hs
    · rw [hs] at h
      exact drawAll_err rnd r (k + 1) S1 S' h

theorem randomLoop_spec (rnd : ℕ → ℕ → ℕ → K) (hr : ∀ i k j, 0 ≤ rnd i k j ∧ rnd i k j ≤ 1) (keys : List String) :
    ∀ (fuel i : ℕ) (S S' : ParamSet K) (o : Option PSet.Err), (∀ p ∈ S.params, Ordered p.lo p.hi) → i ≤ 1000 → 1001 ≤ i + fuel →
      S.randomLoop rnd keys i fuel = (S', o) → Draws keys S S' ∧
      (o = none → Respects S' ∧ ∀ (j : ℕ) (p' : Param K), S'.params[j]? = some p' → (∃ key ∈ keys, S.find key = some j) →
        ∃ v, p'.value = some v ∧ ValIn p'.lo p'.hi v) ∧
      (o = some .unsatisfied → (S'.constraintsOk S'.constraints = .ok true → False) )
  | 0, i, _, _, _, _, h1, h2, _ => by omega
  | fuel + 1, i, S, S', o, ho, h1, h2, h => by
    have hd := drawAll_draws (rnd i) keys keys 0 S fun x hx => hx
    rw [ParamSet.randomLoop] at h
    rcases hs : S.drawAll (rnd i) 0 keys with ⟨S1, _ | e⟩
    · rw [hs] at hd h
      simp only at h hd
      rcases hc : S1.constraintsOk S1.constraints with e | (_ | _)
      · rw [hc] at h
        cases h
        exact ⟨hd, by simp, fun _ hx => by rw [hc] at hx; cases hx⟩
      · rw [hc] at h
        simp only at h
        split at h
        · cases h
          exact ⟨hd, by simp, fun _ hx => by rw [hc] at hx; cases hx⟩
        · next hi =>
          have hord : ∀ p ∈ S1.params, Ordered p.lo p.hi := by
            intro p hp
            obtain ⟨a, ha, rfl⟩ := List.mem_iff_getElem.mp hp
            have ha' : a < S.params.length := by rw [← hd.only.2.1]; exact ha
            have e := hd.only.2.2 a _ _ (List.getElem?_eq_getElem ha') (List.getElem?_eq_getElem ha)
            rw [e]
            exact ho S.params[a] (List.getElem_mem ha')
          obtain ⟨r1, r2, r3⟩ := randomLoop_spec rnd hr keys fuel (i + 1) S1 S' o hord (by omega) (by omega) h
          refine ⟨draws_trans hd r1, fun hn => ⟨(r2 hn).1, fun j p' hp' hk => (r2 hn).2 j p' hp' ?_⟩, r3⟩
          obtain ⟨key, hkm, hkf⟩ := hk
          exact ⟨key, hkm, by rw [find_of_onlyValues hd.only]; exact hkf⟩
      · rw [hc] at h
        cases h
        exact ⟨hd, fun _ => ⟨(c76_constraints S').1 hc, drawAll_in (rnd i) (hr i) keys 0 S S' ho hs⟩, by simp⟩
    · rw [hs] at hd h
      cases h
      refine ⟨hd, by simp, ?_⟩
      rintro ⟨⟩
      exfalso
      exact drawAll_err (rnd i) keys 0 S S' hs

/-- Random values: a successful call leaves the listed parameters in range and all constraints satisfied, and changes nothing
else; it gives up only with constraints that are not satisfied. -/
theorem c76_random (rnd : ℕ → ℕ → ℕ → K) (hr : ∀ i k j, 0 ≤ rnd i k j ∧ rnd i k j ≤ 1) (keys : List String) (S S' : ParamSet K)
    (o : Option PSet.Err) (ho : ∀ p ∈ S.params, Ordered p.lo p.hi) (h : S.setRandom rnd keys = (S', o)) :
    OnlyValues S S' ∧
    (∀ (j : ℕ) (p p' : Param K), S.params[j]? = some p → S'.params[j]? = some p' → (∀ key ∈ keys, S.find key ≠ some j) →
      p'.value = p.value) ∧
    (o = none → Respects S' ∧ ∀ (j : ℕ) (p' : Param K), S'.params[j]? = some p' → (∃ key ∈ keys, S.find key = some j) →
      ∃ v, p'.value = some v ∧ ValIn p'.lo p'.hi v) ∧
    (o = some .unsatisfied → ¬ S'.constraintsOk S'.constraints = .ok true) := by
  obtain ⟨h1, h2, h3⟩ := randomLoop_spec rnd hr keys 1100 0 S S' o ho (by omega) (by omega) h
  exact ⟨h1.only, h1.keep, h2, h3⟩

/-- With the range checks left on, every value is in range after any history. -/
theorem c76_always_in_range (S : ParamSet K) (h : Checked S) :
    ∀ p ∈ S.params, Ordered p.lo p.hi ∧ ∀ v, p.value = some v → ValIn p.lo p.hi v := by
  change AllIn S
  induction h with
  | empty => intro p hp; cases hp
  | define S S' component name a lo hi default mandatory _ hv hd ih =>
    obtain ⟨-, hm, rfl⟩ := define_ok hd
    refine allIn_append ih _ (checkMinMax_ordered lo hi hm) ?_
    rcases mandatory with _ | _
    · exact hv
    · intro v hv'; cases hv'
  | data S S' name value lo hi _ hv hd ih =>
    obtain ⟨-, hm, rfl⟩ := addData_ok hd
    exact allIn_append ih _ (checkMinMax_ordered lo hi hm) hv
  | rename S S' parameter l _ hd ih =>
    unfold ParamSet.addAliases at hd
    split at hd
    · cases hd
    · split at hd
      · cases hd
      · next j _ _ p hp =>
        have hv := (ih p (List.mem_of_getElem? hp)).2
        split at hd
        · cases hd; exact allIn_write ih j p hp _ rfl rfl hv
        · cases hd; exact allIn_write ih j p hp _ rfl rfl hv
        · cases hd
  | transform S S' parameter f _ hd ih =>
    unfold ParamSet.setTransform at hd
    split at hd
    · cases hd
    · split at hd
      · cases hd
      · next j _ _ p hp =>
        have hv := (ih p (List.mem_of_getElem? hp)).2
        split at hd
        · cases hd
        · cases hd
        · cases hd; exact allIn_write ih j p hp _ rfl rfl hv
  | set S adapt transformed kvs _ ih => exact setValues_allIn adapt transformed kvs S ih
  | random S rnd keys _ hr ih => exact randomLoop_allIn rnd hr keys 1100 0 S ih
  | constrain S a op b _ ih => exact ih
  | unconstrain S a op b _ ih => exact ih

/-! ## Calibration -/

theorem listOk_iff : ∀ (ls hs xs : List K), listOk ls hs xs = true → ∀ (i : ℕ) (l h x : K), ls[i]? = some l → hs[i]? = some h →
    xs[i]? = some x → l ≤ x ∧ x ≤ h
  | [], _, _, _ => by simp
  | _ :: _, [], _, _ => by simp
  | _ :: _, _ :: _, [], _ => by simp
  | l :: ls, u :: hs, x :: xs, h => by
    rw [listOk] at h
    simp only [Bool.and_eq_true, Bool.not_eq_true', decide_eq_false_iff_not, not_lt] at h
    intro i a b y ha hb hy
    rcases i with _ | i
    · simp only [List.getElem?_cons_zero, Option.some.injEq] at ha hb hy
      subst ha hb hy
      exact ⟨h.1.2, h.1.1⟩
    · exact listOk_iff ls hs xs h.2 i a b y ha hb hy

theorem rangeOk_true (p : Param K) (h : p.rangeOk = .ok true) : ∃ v, p.value = some v ∧ ValIn p.lo p.hi v := by
  unfold Param.rangeOk at h
  rcases hv : p.value with _ | v
  · rw [hv] at h; cases h
  rw [hv] at h
  simp only at h
  refine ⟨v, rfl, ?_⟩
  have scalar : (∀ ls, p.lo ≠ some (.list ls)) → ((above v p.hi).bind fun a => if a then .ok false else
      (below v p.lo).bind fun b => .ok (!b)) = (.ok true : Except PSet.Err Bool) → ValIn p.lo p.hi v := by
    intro hlo h
    rcases v with x | xs
    · rcases hhi : p.hi with _ | (u | us)
      · rw [hhi] at h
        simp only [above, Except.bind, Bool.false_eq_true, if_false] at h
        rcases hl : p.lo with _ | (l | ls)
        · exact ⟨by simp, by simp⟩
        · rw [hl] at h
          simp only [below, Except.ok.injEq, Bool.not_eq_true', decide_eq_false_iff_not, not_lt] at h
          exact ⟨by rintro a ⟨⟩; exact h, by simp⟩
        · exact absurd hl (hlo ls)
      · rw [hhi] at h
        simp only [above, Except.bind] at h
        by_cases hx : u < x
        · simp only [hx, decide_true, if_true] at h; cases h
        simp only [hx, decide_false, Bool.false_eq_true, if_false] at h
        rcases hl : p.lo with _ | (l | ls)
        · exact ⟨by simp, by rintro a ⟨⟩; exact not_lt.mp hx⟩
        · rw [hl] at h
          simp only [below, Except.ok.injEq, Bool.not_eq_true', decide_eq_false_iff_not, not_lt] at h
          exact ⟨by rintro a ⟨⟩; exact h, by rintro a ⟨⟩; exact not_lt.mp hx⟩
        · exact absurd hl (hlo ls)
      · rw [hhi] at h; cases h
    · intro ls hs hl; exact absurd hl (hlo ls)
  split at h
  · next ls hl =>
    split at h
    · next hs xs hhi =>
      injection h with h
      intro ls' hs' hl' hh'
      rw [hl] at hl'; rw [hhi] at hh'
      cases hl'; cases hh'
      exact listOk_iff ls hs xs h
    · cases h
  · next hno => exact scalar (fun ls e => hno ls e) h

theorem rangesOk_true : ∀ (l : List (Param K)), rangesOk l = .ok true → ∀ p ∈ l, p.rangeOk = .ok true
  | [], _ => by simp
  | p :: r, h => by
    rw [rangesOk] at h
    rcases hc : p.rangeOk with e | b
    · rw [hc] at h; cases h
    rw [hc] at h
    rcases b with _ | _
    · cases h
    · intro d hd
      rcases List.mem_cons.mp hd with rfl | hd
      · exact hc
      · exact rangesOk_true r h d hd

/-- Values set without check, key by key. -/
theorem setValues_unchecked (kvs : List (String × Val K)) (S S' : ParamSet K)
    (h : S.setValues false false true kvs = (S', none)) (j : ℕ) (p p' : Param K) (hp : S.params[j]? = some p)
    (hp' : S'.params[j]? = some p') :
    ((∀ kv ∈ kvs, S.find kv.1 ≠ some j) ∧ p'.value = p.value) ∨
      ∃ pre k v post w, kvs = pre ++ (k, v) :: post ∧ S.find k = some j ∧ (∀ kv ∈ post, S.find kv.1 ≠ some j) ∧
        real true p v = .ok w ∧ p'.value = some w := by
  induction kvs generalizing S p with
  | nil =>
    cases h
    refine Or.inl ⟨by simp, ?_⟩
    rw [hp] at hp'; cases hp'; rfl
  | cons kv r ih =>
    obtain ⟨k, v⟩ := kv
    rw [ParamSet.setValues] at h
    rcases hs : S.setOne false false true k v with e | S1
    · rw [hs] at h; cases h
    rw [hs] at h
    simp only at h
    obtain ⟨i, q, w, w', hf, hq, hr, hc, rfl⟩ := setOne_ok hs
    simp only [Bool.false_eq_true, if_false, Except.ok.injEq] at hc
    subst hc
    have ho1 := write_onlyValues S i q hq w
    have hj : j < S.params.length := (List.getElem?_eq_some_iff.mp hp).1
    have hff := fun name => find_of_onlyValues ho1 name
    have hp1 := List.getElem?_eq_getElem (l := S.params.set i { q with value := some w }) (i := j) (by simpa using hj)
    have e1 := ho1.2.2 j p _ hp hp1
    rcases ih _ h _ hp1 with ⟨hno, hval⟩ | ⟨pre, k2, v2, post, w2, hkvs, hk2, hpost, hr2, hv2⟩
    · by_cases hij : i = j
      · right
        subst hij
        rw [hq] at hp; cases hp
        refine ⟨[], k, v, r, w, rfl, hf, fun kv hkv => ?_, hr, ?_⟩
        · rw [← hff]; exact hno kv hkv
        · rw [hval]; simp only [List.getElem_set, if_true]
      · left
        refine ⟨?_, ?_⟩
        · intro kv hkv
          rcases List.mem_cons.mp hkv with rfl | hkv
          · rw [hf]; simpa using hij
          · rw [← hff]; exact hno kv hkv
        · rw [hval]
          simp only [List.getElem_set, if_neg hij]
          rw [List.getElem?_eq_getElem hj] at hp; cases hp; rfl
    · right
      refine ⟨(k, v) :: pre, k2, v2, post, w2, by rw [hkvs]; rfl, ?_, ?_, ?_, hv2⟩
      · rw [← hff]; exact hk2
      · intro kv hkv; rw [← hff]; exact hpost kv hkv
      · rw [e1] at hr2; exact hr2

/-- A calibration run is simulated only with the sampled values (mapped back to real ones), all parameters defined and in range,
all constraints satisfied. -/
theorem c76_calibration (S S' : ParamSet K) (sample : List (String × Val K)) (h : S.calibrationRun sample = .ok (some S')) :
    OnlyValues S S' ∧ Respects S' ∧ (∀ p ∈ S'.params, ∃ v, p.value = some v ∧ ValIn p.lo p.hi v) ∧
    ∀ (j : ℕ) (p p' : Param K), S.params[j]? = some p → S'.params[j]? = some p' →
      ((∀ kv ∈ sample, S.find kv.1 ≠ some j) ∧ p'.value = p.value) ∨
      ∃ pre k v post w, sample = pre ++ (k, v) :: post ∧ S.find k = some j ∧ (∀ kv ∈ post, S.find kv.1 ≠ some j) ∧
        real true p v = .ok w ∧ p'.value = some w := by
  unfold ParamSet.calibrationRun at h
  have hov := setValues_onlyValues false false true sample S
  rcases hs : S.setValues false false true sample with ⟨S1, _ | e⟩
  · rw [hs] at h hov
    simp only at h hov
    rcases hc : S1.constraintsOk S1.constraints with e | (_ | _)
    · rw [hc] at h; cases h
    · rw [hc] at h; cases h
    · rw [hc] at h
      simp only [Except.bind, if_true] at h
      rcases hr : rangesOk S1.params with e | (_ | _)
      · rw [hr] at h; cases h
      · rw [hr] at h; cases h
      · rw [hr] at h
        cases h
        exact ⟨hov, (c76_constraints S').1 hc, fun p hp => rangeOk_true p (rangesOk_true _ hr p hp),
          fun j p p' hp hp' => setValues_unchecked sample S S' hs j p p' hp hp'⟩
  · rw [hs] at h; cases h

/-- Changing a range changes the bounds that are given, of that parameter only, and keeps its value. -/
theorem c76_change_range (S S' : ParamSet K) (key : String) (lo hi : Option (Val K)) (h : S.changeRange key lo hi = .ok S') :
    S'.constraints = S.constraints ∧ S'.params.length = S.params.length ∧ ∃ (j : ℕ) (p p' : Param K),
      S.find key = some j ∧ S.params[j]? = some p ∧ S'.params[j]? = some p' ∧
      p'.component = p.component ∧ p'.name = p.name ∧ p'.value = p.value ∧ p'.transform = p.transform ∧
      (∀ l, lo = some l → p'.lo = some l) ∧ (lo = none → p'.lo = p.lo) ∧
      (∀ u, hi = some u → p'.hi = some u) ∧ (hi = none → p'.hi = p.hi) ∧
      ∀ i : ℕ, i ≠ j → S'.params[i]? = S.params[i]? := by
  unfold ParamSet.changeRange at h
  rcases hf : S.find key with _ | j
  · rw [hf] at h; cases h
  rw [hf] at h
  simp only at h
  rcases hp : S.params[j]? with _ | p
  · rw [hp] at h; cases h
  rw [hp] at h
  cases h
  have hj : j < S.params.length := (List.getElem?_eq_some_iff.mp hp).1
  refine ⟨rfl, List.length_set, j, p, { p with lo := lo <|> p.lo, hi := hi <|> p.hi }, rfl, hp, ?_, rfl, rfl, rfl, rfl, ?_, ?_, ?_, ?_, ?_⟩
  · rw [List.getElem?_set, if_pos rfl, if_pos hj]
  · rintro l rfl; rfl
  · rintro rfl; rfl
  · rintro u rfl; rfl
  · rintro rfl; rfl
  · intro i hi; rw [List.getElem?_set, if_neg (Ne.symm hi)]

omit [Field K] [LinearOrder K] [IsStrictOrderedRing K] in
/-- Removing a constraint removes that one once, if it is there, and no other one; the parameters stay. -/
theorem c76_remove_constraint (S : ParamSet K) (a op b : String) :
    (S.unconstrain a op b).params = S.params ∧
    (S.unconstrain a op b).constraints.Sublist S.constraints ∧
    (S.unconstrain a op b).constraints.count (a, op, b) = S.constraints.count (a, op, b) - 1 ∧
    ∀ c, c ≠ (a, op, b) → (S.unconstrain a op b).constraints.count c = S.constraints.count c := by
  have e : (S.unconstrain a op b).constraints = S.constraints.erase (a, op, b) := by
    rw [List.erase_eq_eraseP, ParamSet.unconstrain]
    refine congrFun (congrArg List.eraseP (funext fun c => ?_)) S.constraints
    obtain ⟨x, y, z⟩ := c
    rw [Bool.eq_iff_iff]
    simp only [Bool.and_eq_true, beq_iff_eq, Prod.mk.injEq, and_assoc]
  refine ⟨rfl, ?_, ?_, ?_⟩
  · rw [e]; exact List.erase_sublist
  · rw [e, List.count_erase_self]
  · intro c hc; rw [e]; exact List.count_erase_of_ne hc

/-- Transformed values round-trip: a number accepted in transformed space is the one read back in transformed space. -/
theorem c76_transform (S S' : ParamSet K) (key : String) (j : ℕ) (p : Param K) (hf : S.find key = some j)
    (hp : S.params[j]? = some p) (f : (K → K) × (K → K)) (ht : p.transform = some f) (x : K) (hinv : f.1 (f.2 x) = x)
    (hord : ∀ p ∈ S.params, Ordered p.lo p.hi) (h : S.setValues true false true [(key, .num x)] = (S', none)) :
    S'.getTransformed key = .ok (some (.num x)) ∧ S'.get key = .ok (some (.num (f.2 x))) := by
  obtain ⟨hov, hcell⟩ := c76_set_values false true [(key, .num x)] S S' hord h
  have hj : j < S'.params.length := by rw [hov.2.1]; exact (List.getElem?_eq_some_iff.mp hp).1
  obtain ⟨p', hp'⟩ : ∃ p', S'.params[j]? = some p' := ⟨_, List.getElem?_eq_getElem hj⟩
  have e := hov.2.2 j p p' hp hp'
  rcases hcell j p p' hp hp' with ⟨hno, -⟩ | ⟨pre, k, v, post, w, w', hkvs, -, -, hr, hv, -, had⟩
  · exact absurd hf (hno (key, Val.num x) (List.mem_singleton.mpr rfl))
  · have hone : k = key ∧ v = .num x := by
      rcases pre with _ | ⟨a, pre⟩
      · simp only [List.nil_append, List.cons.injEq, Prod.mk.injEq] at hkvs
        exact ⟨hkvs.1.1.symm, hkvs.1.2.symm⟩
      · simp at hkvs
    obtain ⟨rfl, rfl⟩ := hone
    rw [real, if_pos rfl, ht] at hr
    simp only [Except.ok.injEq] at hr
    rw [had rfl, ← hr] at hv
    have hf' : S'.find k = some j := by rw [find_of_onlyValues hov]; exact hf
    constructor
    · unfold ParamSet.getTransformed
      rw [hf']
      simp only [Option.bind_some, hp', hv]
      have ht' : p'.transform = some f := by rw [e]; exact ht
      rw [ht']
      simp only [hinv]
    · unfold ParamSet.get
      rw [hf']
      simp only [Option.bind_some, hp', hv]

end
/-! ## A case and what goes wrong -/

namespace ParamDemo

/-- Two store constants and a monthly factor. -/
def empty : ParamSet ℚ := ⟨[], []⟩

def p1 : Param ℚ := ⟨"slow", "response_factor", .names ["k1", "kSlow"], none, some (.num 0), some (.num 1), none⟩
def p2 : Param ℚ := ⟨"fast", "response_factor", .names ["k2"], some (.num (1 / 2)), some (.num 0), some (.num 1), none⟩
def p3 : Param ℚ := ⟨"soil", "factors", .names ["mf"], none, some (.list [1, 2]), some (.list [3, 4]), none⟩
def S3 : ParamSet ℚ := ⟨[p1, p2, p3], [("k1", "<", "k2")]⟩

theorem defined : Defined S3 := by
  have h1 : empty.define "slow" "response_factor" (.names ["k1", "kSlow"]) (some (.num 0)) (some (.num 1)) none true =
      .ok ⟨[p1], []⟩ := rfl
  have h2 : (⟨[p1], []⟩ : ParamSet ℚ).define "fast" "response_factor" (.names ["k2"]) (some (.num 0)) (some (.num 1))
      (some (.num (1 / 2))) false = .ok ⟨[p1, p2], []⟩ := rfl
  have h3 : (⟨[p1, p2], []⟩ : ParamSet ℚ).define "soil" "factors" (.names ["mf"]) (some (.list [1, 2])) (some (.list [3, 4]))
      none true = .ok ⟨[p1, p2, p3], []⟩ := rfl
  have d1 := Defined.define _ _ _ _ _ _ _ _ _ Defined.empty (by decide) h1
  have d2 := Defined.define _ _ _ _ _ _ _ _ _ d1 (by decide) h2
  have d3 := Defined.define _ _ _ _ _ _ _ _ _ d2 (by decide) h3
  exact Defined.constrain _ "k1" "<" "k2" d3

theorem ordered : ∀ p ∈ S3.params, Ordered p.lo p.hi := by
  intro p hp
  simp only [S3, List.mem_cons, List.not_mem_nil, or_false] at hp
  rcases hp with rfl | rfl | rfl
  · exact checkMinMax_ordered _ _ rfl
  · exact checkMinMax_ordered _ _ rfl
  · exact checkMinMax_ordered _ _ rfl

/-- The values and the exception of a call. -/
def out (r : ParamSet ℚ × Option PSet.Err) : List (Option (Val ℚ)) × Option PSet.Err := (r.1.params.map (·.value), r.2)

/-- Draws that satisfy the constraint in the second try. -/
def rnd (i k _j : ℕ) : ℚ := if i = 0 then (if k = 0 then 3 / 4 else 1 / 4) else if k = 0 then 1 / 8 else 7 / 8

/-- Names in any case, values with and without adapting, a refusal, and random draws. -/
theorem works : S3.find "KSLOW" = some 0 ∧ S3.find "Fast:Response_Factor" = some 1 ∧ S3.find "k3" = none ∧
    out (S3.setValues true false false [("kslow", .num (1 / 4)), ("mf", .list [2, 2])]) =
      ([some (.num (1 / 4)), some (.num (1 / 2)), some (.list [2, 2])], none) ∧
    out (S3.setValues true true false [("k1", .num 7), ("mf", .list [0, 9])]) =
      ([some (.num 1), some (.num (1 / 2)), some (.list [1, 4])], none) ∧
    out (S3.setValues true false false [("k1", .num 7)]) = ([none, some (.num (1 / 2)), none], some .outOfRange) ∧
    out (S3.setRandom rnd ["k1", "k2"]) = ([some (.num (1 / 8)), some (.num (7 / 8)), none], none) :=
  ⟨by decide, by decide, by decide, by decide +kernel, by decide +kernel, by decide +kernel, by decide +kernel⟩

/-- A sample that respects everything is run; one that violates the constraint or a range is skipped. -/
theorem calibrates : ((⟨[p1, p2], [("k1", "<", "k2")]⟩ : ParamSet ℚ).calibrationRun [("k1", .num (1 / 4))]).toOption.isSome ∧
    (((⟨[p1, p2], [("k1", "<", "k2")]⟩ : ParamSet ℚ).calibrationRun [("k1", .num (1 / 4))]).toOption.bind fun r =>
      r.map fun S => S.params.map (·.value)) = some [some (.num (1 / 4)), some (.num (1 / 2))] ∧
    ((⟨[p1, p2], [("k1", "<", "k2")]⟩ : ParamSet ℚ).calibrationRun [("k1", .num (3 / 4))]).toOption.map Option.isSome =
      some false ∧
    ((⟨[p1, p2], [("k1", "<", "k2")]⟩ : ParamSet ℚ).calibrationRun [("k1", .num (-1))]).toOption.map Option.isSome =
      some false :=
  ⟨by decide +kernel, by decide +kernel, by decide +kernel, by decide +kernel⟩

end ParamDemo

open ParamDemo in
/-- An alias given as a text (as the signature allows) is taken letter by letter: the parameter cannot be found by it. -/
theorem c76_alias_as_text : ((empty.define "glacier" "degree_day_factor" (.text "kgl") none none none true).toOption.map fun S =>
    (S.find "kgl", S.find "g")) = some (none, some 0) := by decide

open ParamDemo in
/-- An added alias is not checked: it may be the name of another parameter, which then takes the value. -/
theorem c76_added_alias_shadows : ((S3.addAliases "fast:response_factor" ["k1"]).toOption.map fun S =>
    (S.find "k1", out (S.setValues true false false [("k1", .num (1 / 4))]))) =
      some (some 0, [some (.num (1 / 4)), some (.num (1 / 2)), none], none) ∧
    ((S3.addAliases "slow:response_factor" ["k2"]).toOption.map fun S =>
    (S.find "k2", out (S.setValues true false false [("k2", .num (1 / 4))]))) =
      some (some 0, [some (.num (1 / 4)), some (.num (1 / 2)), none], none) := by
  constructor <;> decide +kernel

open ParamDemo in
/-- A constraint with an operator that is not known is accepted and never checked. -/
theorem c76_unknown_operator (S : ParamSet ℚ) (a b : String) (x y : ℚ) (hx : Stands S a x) (hy : Stands S b y) :
    S.satisfies (a, "==", b) = .ok true := satisfies_of_stands S (a, "==", b) x y hx hy

open ParamDemo in
/-- A call refused at its second key has changed the first one. -/
theorem c76_partial_update : out (S3.setValues true false false [("k2", .num (1 / 4)), ("k1", .num 7)]) =
    ([none, some (.num (1 / 4)), none], some .outOfRange) := by decide +kernel

open ParamDemo in
/-- A default value out of range is accepted, and so is a range changed below the value, or turned around. -/
theorem c76_unchecked_ranges :
    ((empty.define "a" "b" .none (some (.num 0)) (some (.num 1)) (some (.num 5)) false).toOption.map fun S =>
      S.params.map (·.value)) = some [some (.num 5)] ∧
    ((S3.changeRange "k2" none (some (.num (1 / 4)))).toOption.map fun S => S.params.map (·.value)) =
      some [none, some (.num (1 / 2)), none] ∧
    ((S3.changeRange "k2" (some (.num 3)) none).toOption.map fun S => out (S.setValues true true false [("k2", .num 2)])) =
      some ([none, some (.num 1), none], none) := by
  refine ⟨?_, ?_, ?_⟩ <;> decide +kernel

open ParamDemo in
/-- A list of the wrong length is accepted. -/
theorem c76_list_length : out (S3.setValues true false false [("mf", .list [2])]) =
      ([none, some (.num (1 / 2)), some (.list [2])], none) ∧
    out (S3.setValues true false false [("mf", .list [2, 2, 99])]) =
      ([none, some (.num (1 / 2)), some (.list [2, 2, 99])], none) := by
  constructor <;> decide +kernel

open ParamDemo in
/-- The hypotheses are met: a new maximum, and a constraint removed among three. -/
theorem c76_changes_apply : ((S3.changeRange "k2" none (some (.num (1 / 4)))).toOption.map fun S =>
      S.params.map fun p => (p.lo, p.hi)) =
      some [(some (.num 0), some (.num 1)), (some (.num 0), some (.num (1 / 4))), (some (.list [1, 2]), some (.list [3, 4]))] ∧
    ((⟨[p1, p2], [("k1", "<", "k2"), ("k1", "<", "k3"), ("k2", "<", "k3")]⟩ : ParamSet ℚ).unconstrain "k1" "<" "k3").constraints =
      [("k1", "<", "k2"), ("k2", "<", "k3")] := by
  constructor <;> decide +kernel

end HB
