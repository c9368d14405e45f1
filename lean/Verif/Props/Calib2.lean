import Verif.Props.Calib

/-! # C85: auxiliary signals, reading the results -/

set_option linter.unusedSectionVars false

namespace HB.Calib

open HB.Spec.Calib HB.Periods

variable {K : Type} [Field K] [LinearOrder K] [IsStrictOrderedRing K]

theorem masked_eq (s o : Ser K) : masked s o = usable s o := by
  induction s generalizing o with
  | nil => cases o <;> rfl
  | cons a s ih =>
    cases o with
    | nil => cases a <;> rfl
    | cons b o =>
      unfold masked at ih ⊢
      rw [List.zip_cons_cons]
      cases a <;> cases b <;> simp [usable, ih]

/-- An auxiliary signal: its settings, its simulated and its observed values. -/
abbrev Sig (K : Type) := Extra K × Ser K × Ser K

open Classical in
theorem terms_eq (M : Metrics K) (c : Cfg K) (sig : List (Sig K)) (hsig : ∀ e ∈ sig, e.2.1.length = e.2.2.length) (qs qo : Ser K)
    (hq : qs.length = qo.length) :
    terms M c (qs ++ (sig.map fun e => e.2.1).flatten) (qo ++ (sig.map fun e => e.2.2).flatten)
      ((sig.map fun e => e.1).zip (sig.map fun e => e.2.2.length)) qs.length =
    if ∀ e ∈ sig, Meets e.1 e.2.1 e.2.2 then
      some ((sig.filter fun e => e.1.mode = .objective).map fun e => (e.1.weight, term M c e.1 e.2.1 e.2.2))
    else none := by
  induction sig generalizing qs qo with
  | nil => simp [terms]
  | cons e sig ih =>
    have he := hsig e (by simp)
    have ih' := ih (fun x hx => hsig x (List.mem_cons_of_mem _ hx)) (qs ++ e.2.1) (qo ++ e.2.2) (by simp [hq, he])
    simp only [List.map_cons, List.flatten_cons, List.zip_cons_cons]
    unfold terms
    have d1 : (List.drop qs.length (qs ++ (e.2.1 ++ (sig.map fun e => e.2.1).flatten))).take e.2.2.length = e.2.1 := by
      rw [List.drop_left, ← he, List.take_left]
    have d2 : (List.drop qs.length (qo ++ (e.2.2 ++ (sig.map fun e => e.2.2).flatten))).take e.2.2.length = e.2.2 := by
      rw [hq, List.drop_left, List.take_left]
    simp only [d1, d2, masked_eq]
    rw [← List.append_assoc, ← List.append_assoc]
    have l1 : qs.length + e.2.2.length = (qs ++ e.2.1).length := by simp [he]
    rw [l1, ih']
    rw [if_congr (List.forall_mem_cons) rfl rfl]
    by_cases hemp : (usable e.2.1 e.2.2).isEmpty
    · rw [if_pos hemp, if_neg]
      intro h
      exact h.1.1 (List.isEmpty_iff.1 hemp)
    · rw [if_neg hemp]
      have hne : usable e.2.1 e.2.2 ≠ [] := fun h => hemp (List.isEmpty_iff.2 h)
      cases hmode : e.1.mode with
      | constraint =>
        simp only
        have hthr : e.1.threshold (usable e.2.1 e.2.2) = Limit e.1 (usable e.2.1 e.2.2) := by
          unfold Extra.threshold Limit mean
          cases e.1.relative <;> simp
        have hmae : meanAbs (usable e.2.1 e.2.2) = mean ((usable e.2.1 e.2.2).map fun x => |x.1 - x.2|) := by
          unfold meanAbs mean; rw [List.length_map]
        rw [hthr, hmae]
        by_cases hm : Meets e.1 e.2.1 e.2.2
        · rw [if_neg]
          · rw [if_congr (and_iff_right hm) rfl rfl, List.filter_cons_of_neg (by simp [hmode])]
          · cases hlim : Limit e.1 (usable e.2.1 e.2.2) with
            | none => simp
            | some t =>
              have := hm.2 hmode t hlim
              simp only [Option.any_some, decide_eq_true_eq, not_lt]
              exact this
        · rw [if_pos]
          · rw [if_neg]
            exact fun h => hm h.1
          · unfold Meets at hm
            rw [not_and] at hm
            have := hm hne
            push Not at this
            obtain ⟨_, t, ht, hlt⟩ := this
            rw [ht]
            simpa using hlt
      | objective =>
        have hm : Meets e.1 e.2.1 e.2.2 := ⟨hne, fun h => by rw [hmode] at h; cases h⟩
        simp only
        rw [if_congr (and_iff_right hm) rfl rfl, List.filter_cons_of_pos (by simp [hmode])]
        by_cases hall : ∀ x ∈ sig, Meets x.1 x.2.1 x.2.2
        · rw [if_pos hall, if_pos hall]
          rfl
        · rw [if_neg hall, if_neg hall]

open Classical in
/-- **C85 (auxiliary signals)**: a run with auxiliary signals gets the worst score if one of them has no values to compare or exceeds its
tolerance; otherwise the score is made of the skill of the discharge and the skills of the objective signals, each computed on its own values. -/
theorem c85_signals (M : Metrics K) (c : Cfg K) (sig : List (Sig K)) (hne : sig ≠ []) (hsig : ∀ e ∈ sig, e.2.1.length = e.2.2.length)
    (hex : c.extras = sig.map fun e => e.1) (hlen : c.lengths = sig.map fun e => e.2.2.length) (run obs : Ser K) (warmup : ℕ)
    (hq : run.length = obs.length) (hw : warmup < run.length) :
    objective M c (simulation true [some run] warmup (some (some (sig.map fun e => e.2.1))))
        (evaluation [obs] warmup (some (sig.map fun e => e.2.2))) =
      if ∀ e ∈ sig, Meets e.1 e.2.1 e.2.2 then
        if c.pareto then
          .vec ((dischargeSkill M c (run.drop warmup) (obs.drop warmup) ::
            (sig.filter fun e => e.1.mode = .objective).map fun e => term M c e.1 e.2.1 e.2.2).map c.orient)
        else
          .one (.num (c.orient (c.dischargeWeight * dischargeTerm M c (run.drop warmup) (obs.drop warmup) +
            ((sig.filter fun e => e.1.mode = .objective).map fun e => e.1.weight * term M c e.1 e.2.1 e.2.2).sum)))
      else worst c := by
  have hsim : simulation true [some run] warmup (some (some (sig.map fun e => e.2.1))) =
      some [run.drop warmup ++ (sig.map fun e => e.2.1).flatten] := by
    have hk : kept warmup (some run) = some (run.drop warmup) := if_neg (by omega)
    have : ([some run] : List (Option (Ser K))).mapM (kept warmup) = some [run.drop warmup] := by
      rw [List.mapM_cons, hk]; rfl
    unfold simulation
    rw [this]; rfl
  have heval : evaluation [obs] warmup (some (sig.map fun e => e.2.2)) = [obs.drop warmup ++ (sig.map fun e => e.2.2).flatten] := rfl
  rw [hsim, heval]
  have hq' : (run.drop warmup).length = (obs.drop warmup).length := by simp [hq]
  have hpos : (run.drop warmup).length ≠ 0 := by rw [List.length_drop]; omega
  generalize run.drop warmup = qs at *
  generalize obs.drop warmup = qo at *
  have hfl : (sig.map fun e => e.2.1).flatten.length = c.lengths.sum := by
    rw [hlen, List.length_flatten, List.map_map]
    congr 1
    exact List.map_congr_left (fun e he => hsig e he)
  have hfo : (sig.map fun e => e.2.2).flatten.length = c.lengths.sum := by
    rw [hlen, List.length_flatten, List.map_map]
    rfl
  unfold objective
  simp only
  rw [if_neg (by rw [hex]; cases sig with | nil => exact absurd rfl hne | cons => simp)]
  unfold withExtra
  rw [if_neg (by rw [List.length_append, List.length_append, hfl, hfo]; omega)]
  have hsub : (qs ++ (sig.map fun e => e.2.1).flatten).length - c.lengths.sum = qs.length := by
    rw [List.length_append, hfl]; omega
  simp only [hsub]
  rw [List.take_left, hq', List.take_left, ← hq', hex, hlen, terms_eq M c sig hsig qs qo hq']
  by_cases hall : ∀ e ∈ sig, Meets e.1 e.2.1 e.2.2
  · rw [if_pos hall, if_pos hall]
    simp only
    cases hp : c.pareto
    · simp only [Bool.false_eq_true, if_false, List.map_map]
      congr 3
      unfold dischargeTerm orientedTerm
      cases c.objFunc with
      | default => rfl
      | custom f => rfl
      | named m => cases c.normalize <;> simp [Function.comp_def]
    · simp only [if_true, List.map_map]
      rfl
  · rw [if_neg hall, if_neg hall]

/-! ## Reading the results -/

theorem argmax_spec (l : List (Val K)) (i : ℕ) (s : K) (h : argmax l = some (i, s)) :
    l[i]? = some (.num s) ∧ (∀ (j : ℕ) (x : K), l[j]? = some (.num x) → x ≤ s) ∧ ∀ (j : ℕ) (x : K), j < i → l[j]? = some (.num x) → x < s := by
  induction l generalizing i s with
  | nil => simp [argmax] at h
  | cons v l ih =>
    cases v with
    | bad =>
      unfold argmax at h
      rw [Option.map_eq_some_iff] at h
      obtain ⟨⟨i', s'⟩, h', e⟩ := h
      cases e
      obtain ⟨h1, h2, h3⟩ := ih i' s' h'
      refine ⟨by simpa using h1, fun j x hj => ?_, fun j x hji hj => ?_⟩
      · cases j with
        | zero => simp at hj
        | succ j => exact h2 j x (by simpa using hj)
      · cases j with
        | zero => simp at hj
        | succ j => exact h3 j x (by simp at hji; omega) (by simpa using hj)
    | num y =>
      unfold argmax at h
      cases hr : argmax l with
      | none =>
        rw [hr] at h
        simp only [Option.some.injEq, Prod.mk.injEq] at h
        obtain ⟨rfl, rfl⟩ := h
        have hnone : ∀ (j : ℕ) (x : K), l[j]? ≠ some (.num x) := by
          clear ih
          intro j x hx
          induction l generalizing j with
          | nil => simp at hx
          | cons w l ih' =>
            cases w with
            | bad =>
              unfold argmax at hr
              rw [Option.map_eq_none_iff] at hr
              cases j with
              | zero => simp at hx
              | succ j => exact ih' hr j (by simpa using hx)
            | num z =>
              unfold argmax at hr
              split at hr
              · cases hr
              · split at hr <;> cases hr
        refine ⟨rfl, fun j x hj => ?_, fun j x hji => by omega⟩
        cases j with
        | zero => simp at hj; rw [hj]
        | succ j => exact absurd (by simpa using hj) (hnone j x)
      | some e =>
        obtain ⟨i', s'⟩ := e
        rw [hr] at h
        simp only at h
        obtain ⟨h1, h2, h3⟩ := ih i' s' hr
        split at h
        · next hlt =>
          cases h
          refine ⟨by simpa using h1, fun j x hj => ?_, fun j x hji hj => ?_⟩
          · cases j with
            | zero => simp at hj; rw [← hj]; exact le_of_lt hlt
            | succ j => exact h2 j x (by simpa using hj)
          · cases j with
            | zero => simp at hj; rw [← hj]; exact hlt
            | succ j => exact h3 j x (by omega) (by simpa using hj)
        · next hge =>
          cases h
          refine ⟨rfl, fun j x hj => ?_, fun j x hji => by omega⟩
          cases j with
          | zero => simp at hj; rw [hj]
          | succ j => exact le_trans (h2 j x (by simpa using hj)) (not_lt.1 hge)

/-- **C85 (best)**: the best run reported is the first of those with the highest skill, with that skill, whatever the direction of the
algorithm; it is found whenever some run has a finite score. -/
theorem c85_best (c : Cfg K) (skills : List (Option K)) (i : ℕ) (s : K)
    (h : getBest c (skills.map fun o => match o with | none => .bad | some x => .num (c.orient x)) = .ok (i, s)) :
    skills[i]? = some (some s) ∧ (∀ (j : ℕ) (x : K), skills[j]? = some (some x) → x ≤ s) ∧
      ∀ (j : ℕ) (x : K), j < i → skills[j]? = some (some x) → x < s := by
  unfold getBest at h
  have e : ((skills.map fun o => match o with | none => Val.bad | some x => Val.num (c.orient x)).map c.reported) =
      skills.map fun o => match o with | none => Val.bad | some x => Val.num x := by
    rw [List.map_map]
    apply List.map_congr_left
    rintro (_ | x) _
    · rfl
    · exact (c85_direction c x x).2
  have key : ∀ (j : ℕ) (x : K), (skills.map fun o => match o with | none => Val.bad | some x => Val.num x)[j]? = some (.num x) ↔
      skills[j]? = some (some x) := by
    intro j x
    rw [List.getElem?_map, Option.map_eq_some_iff]
    constructor
    · rintro ⟨o, ho, hx⟩
      cases o with
      | none => cases hx
      | some y => simp only [Val.num.injEq] at hx; rw [ho, hx]
    · intro ho
      exact ⟨some x, ho, rfl⟩
  split at h
  · cases h
  · next e' he =>
    cases h
    rw [e] at he
    obtain ⟨h1, h2, h3⟩ := argmax_spec _ _ _ he
    exact ⟨(key i s).1 h1, fun j x hj => h2 j x ((key j x).2 hj), fun j x hji hj => h3 j x hji ((key j x).2 hj)⟩

/-- **C85 (skill scale)**: an error metric turned into a skill is 1 for a perfect simulation, 0 for an error equal to that of the mean
of the observations, and the larger the smaller the error. -/
theorem c85_scale (M : Metrics K) (m : String) (hm : isError m = true) (obs : Ser K) (r : K) (hr : reference M obs m = some r)
    (hpos : 1 / 1000000000000 ≤ r) :
    toSkill M 0 m obs = 1 ∧ toSkill M r m obs = 0 ∧ ∀ a b, toSkill M a m obs < toSkill M b m obs ↔ b < a := by
  have hr0 : 0 < r := lt_of_lt_of_le (by norm_num) hpos
  have e : ∀ v, toSkill M v m obs = 1 - v / r := by
    intro v
    unfold toSkill
    rw [hm, hr]
    simp only [Bool.not_true, Bool.false_eq_true, if_false]
    rw [if_neg]
    rw [abs_of_pos hr0, not_lt]
    exact hpos
  refine ⟨by rw [e]; simp, by rw [e, div_self hr0.ne', sub_self], fun a b => ?_⟩
  rw [e, e, sub_lt_sub_iff_left, div_lt_div_iff_of_pos_right hr0]

/-- **C85 (rejected sets)**: a rejected set is scored a fixed worst value, and the optimiser prefers any set whose skill is above
`-1e12`. -/
theorem c85_rejected (M : Metrics K) (c : Cfg K) (hx : c.pareto = false) (eval : List (Ser K)) :
    objective M c none eval = .one (.num (c.orient (-1000000000000))) ∧
    ∀ s, -1000000000000 < s → Prefers c (c.orient s) (c.orient (-1000000000000)) := by
  refine ⟨?_, fun s hs => (c85_direction c s _).1.2 hs⟩
  show worst c = _
  unfold worst
  rw [hx]
  simp [penalty]

/-- Sets that break a constraint or a range, fail, or have no discharge, are rejected. -/
theorem c85_reasons {V : Type} (valid : Bool) (runs : List (Option (List V))) (warmup : ℕ) (extra : Option (Option (List (List V))))
    (h : valid = false ∨ none ∈ runs ∨ some [] ∈ runs ∨ extra = some none) : simulation valid runs warmup extra = none := by
  unfold simulation
  cases valid with
  | false => rfl
  | true =>
    simp only [Bool.not_true, Bool.false_eq_true, if_false]
    have hbad : ∀ r ∈ runs, kept warmup r = none → runs.mapM (kept warmup) = none := by
      intro r hr hk
      induction runs with
      | nil => simp at hr
      | cons a l ih =>
        rw [List.mapM_cons]
        rcases List.mem_cons.1 hr with rfl | hr
        · rw [hk]; rfl
        · cases hka : kept warmup a with
          | none => rfl
          | some b =>
            have : l.mapM (kept warmup) = none := by
              clear hka ih h
              induction l with
              | nil => simp at hr
              | cons a' l ih' =>
                rw [List.mapM_cons]
                rcases List.mem_cons.1 hr with rfl | hr
                · rw [hk]; rfl
                · cases kept warmup a' with
                  | none => rfl
                  | some b' => rw [ih' (List.mem_cons_of_mem _ hr) hr]; rfl
            rw [this]; rfl
    rcases h with h | h | h | h
    · cases h
    · rw [hbad none h rfl]
    · rw [hbad (some []) h rfl]
    · rw [h]
      cases runs.mapM (kept warmup) <;> rfl

/-- **C85 (draws)**: a starting set that meets the constraints and the ranges is handed to the optimiser when one of a thousand draws is. -/
theorem c85_draw {P : Type} (ok : P → Bool) (draw : ℕ → P) (i : ℕ) (hi : i < 1000) (h : ok (draw i) = true) :
    ∃ p, parameters ok draw = .ok p ∧ ok p = true := by
  unfold parameters
  cases hf : (List.range 1000).find? fun i => ok (draw i) with
  | some j =>
    refine ⟨draw j, rfl, ?_⟩
    have := List.find?_some hf
    exact this
  | none =>
    rw [List.find?_eq_none] at hf
    exact absurd h (hf i (List.mem_range.2 hi))

/-- **C85 (limit: no draw)**: when none is, the last draw is handed over although it breaks them; nothing is raised. -/
theorem c85_no_draw {P : Type} (ok : P → Bool) (draw : ℕ → P) (h : ∀ i, ok (draw i) = false) :
    parameters ok draw = .ok (draw 999) ∧ ok (draw 999) = false := by
  refine ⟨?_, h 999⟩
  unfold parameters
  have : (List.range 1000).find? (fun i => ok (draw i)) = none := by
    rw [List.find?_eq_none]
    intro i _
    simp [h i]
  rw [this]

end HB.Calib
