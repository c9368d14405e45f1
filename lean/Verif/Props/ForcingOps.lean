import Verif.Model.ForcingOpsLemmas
import Mathlib.Algebra.BigOperators.Group.Finset.Basic
import Mathlib.Algebra.BigOperators.Ring.Finset
import Mathlib.Algebra.BigOperators.Intervals
import Mathlib.Algebra.BigOperators.Group.Finset.Sigma
import Mathlib.Algebra.Order.Field.Rat
import Mathlib.Data.Rat.Defs
import Mathlib.Tactic.FieldSimp

/-!
# C78: what the forcing operations compute

The table of values handed to the model is, for each variable spatialised from a station, the documented rule applied to
the corrected station value.
-/

namespace HB.ForcingOps

open HB.Spec.ForcingOps

set_option linter.unusedSectionVars false

section
variable {K : Type} [Field K] [LinearOrder K]

theorem cell_look (s : State K) (v : Var) (i t : ℕ) :
    cell s v i t = ((look v s.spatial).bind fun cols => cols[i]?).bind fun c => c[t]? := by
  unfold cell
  rw [look_find]
  cases s.spatial.find? fun e => decide (e.1 = v) <;> rfl

theorem observed_look (s : State K) (v : Var) (t : ℕ) :
    observed s v t = (look v s.station).bind fun c => c[t]? := by
  unfold observed
  rw [look_find]
  cases s.station.find? fun e => decide (e.1 = v) <;> rfl

/-- The table of a variable after the operations. -/
theorem table (site : Site K) (ps : Option (Pars K)) (ops : List (Op K)) (s s' : State K)
    (h : apply site ps true ops s = .ok s') (hrect : Rectangular site s) (hmon : Months site)
    (o : Spat K) (hl : LastOf ops o) (hp : o.var ≠ .pet ∨ ∀ used f, .pet used f ∉ ops)
    (rule : Rule K) (hr : Means ps o rule) :
    ∃ (f : K → K) (raw : List K) (cols : List (List K)), (∀ x, Corrected ps o.var ops x (f x)) ∧
      look o.var s.station = some raw ∧ raw.length = site.months.length ∧ look o.var s'.spatial = some cols ∧
      cols.length = site.elevs.length ∧
      ∀ (i : ℕ) (z : K), site.elevs[i]? = some z → ∃ c, cols[i]? = some c ∧ c.length = site.months.length ∧
        ∀ (t : ℕ) (x : K) (mo : ℕ), raw[t]? = some x → site.months[t]? = some mo →
          c[t]? = some (stored o.var (rule.value mo z (f x))) := by
  obtain ⟨s1, s2, s3, s4, h1, h2, h3, h4, hs'⟩ := apply_ok h
  subst hs'
  obtain ⟨_, hcorr⟩ := corrections site ps ops s s1 h1
  obtain ⟨opts, raw1, cols, hres, hraw1, hcols, hlook⟩ := stations_last h2 hl
  have hl4 : look o.var s4.spatial = some cols := by
    rw [(pets_keep ops h4).2 o.var hp]
    exact (grids_keep ops h3).2 o.var cols hlook
  obtain ⟨raw, hraw⟩ : ∃ raw, look o.var s.station = some raw := by
    cases hh : look o.var s.station with
    | some raw => exact ⟨raw, rfl⟩
    | none =>
      exfalso
      have : ∀ (l : List (Op K)) (a b : State K), ofType site ps true l a 0 = .ok b → look o.var a.station = none →
          look o.var b.station = none := by
        intro l
        induction l with
        | nil => intro a b hab hn; cases hab; exact hn
        | cons op l ih =>
          intro a b hab hn
          unfold ofType at hab
          rw [List.foldlM_cons] at hab
          obtain ⟨c, hc, hab⟩ := ebind hab
          refine ih c b hab ?_
          cases op with
          | correct k =>
            simp only [stepOp, if_true, Bool.true_or] at hc
            obtain ⟨f, _, hc⟩ := ebind hc
            obtain ⟨r0, _, _, hr0, _, hcs⟩ := correct_ok hc
            subst hcs
            rw [look_put]
            by_cases hv : o.var = k.var
            · rw [hv, hr0] at hn; cases hn
            · rw [if_neg hv]; exact hn
          | station o' => simp only [stepOp] at hc; cases hc; exact hn
          | grid w cs => simp only [stepOp] at hc; cases hc; exact hn
          | pet u f => simp only [stepOp] at hc; cases hc; exact hn
      rw [this ops s s1 h1 hh] at hraw1
      cases hraw1
  obtain ⟨f, hf, hl1⟩ := hcorr o.var raw hraw
  rw [hraw1] at hl1
  have hraw1' : raw1 = raw.map f := Option.some.inj hl1
  have hlen : raw.length = site.months.length := hrect (o.var, raw) (look_mem _ _ _ hraw)
  unfold columns at hcols
  obtain ⟨m, hm, hcols⟩ := ebind hcols
  split at hcols
  · obtain ⟨cs, hcs, hcols⟩ := ebind hcols
    cases hcols
    obtain ⟨hlcs, hi⟩ := mapM_ok _ _ _ hcs
    refine ⟨f, raw, _, hf, hraw, hlen, hl4, by simp [hlcs], fun i z hz => ?_⟩
    obtain ⟨c, hc, hcol⟩ := hi i z hz
    obtain ⟨c', hc', hcl, hval⟩ := column_rule hres hr hm hmon (raw := raw1)
      (by rw [hraw1', List.length_map]; exact hlen) z
    rw [hc'] at hcol
    cases hcol
    have hlc : (c.map (clip o.var)).length = site.months.length := by
      rw [List.length_map, hcl, hraw1', List.length_map]; exact hlen
    refine ⟨c.map (clip o.var), by rw [List.getElem?_map, hc]; rfl, hlc, fun t x mo hx hmo => ?_⟩
    rw [List.getElem?_map, hval t (f x) mo (by rw [hraw1', List.getElem?_map, hx]; rfl) hmo, Option.map_some,
      clip_stored]
  · cases hcols

/-- **C78 (values)**: once the operations are applied, the value of a variable spatialised from a station, for any unit and
any time, is the documented rule of its last spatialisation applied to the value of the station after all the
corrections of the variable, raised to zero unless the variable is a temperature. -/
theorem c78_values (site : Site K) (ps : Option (Pars K)) (ops : List (Op K)) (s s' : State K)
    (h : apply site ps true ops s = .ok s') (hrect : Rectangular site s) (hmon : Months site)
    (o : Spat K) (hl : LastOf ops o) (hp : o.var ≠ .pet ∨ ∀ used f, .pet used f ∉ ops)
    (rule : Rule K) (hr : Means ps o rule) (i t : ℕ) (z x : K) (mo : ℕ)
    (hz : site.elevs[i]? = some z) (hx : observed s o.var t = some x) (hmo : site.months[t]? = some mo) :
    ∃ y, Corrected ps o.var ops x y ∧ cell s' o.var i t = some (stored o.var (rule.value mo z y)) := by
  obtain ⟨f, raw, cols, hf, hraw, _, hlook, _, hi⟩ := table site ps ops s s' h hrect hmon o hl hp rule hr
  obtain ⟨c, hc, _, hval⟩ := hi i z hz
  rw [observed_look, hraw] at hx
  refine ⟨f x, hf x, ?_⟩
  rw [cell_look, hlook]
  simp only [Option.bind_some, hc]
  exact hval t x mo hx hmo

theorem given_unique {ps : Option (Pars K)} {a : Option (Arg K)} {v w : Val K} (hv : Given ps a v) (hw : Given ps a w) :
    v = w := by
  have h1 := value_given hv
  have h2 := value_given hw
  rw [h1] at h2
  cases h2
  rfl

/-- The corrected value is determined by the operations. -/
theorem c78_corrected_unique (ps : Option (Pars K)) (v : Var) (ops : List (Op K)) (x y y' : K)
    (h : Corrected ps v ops x y) (h' : Corrected ps v ops x y') : y = y' := by
  induction h with
  | nil x => cases h'; rfl
  | other op ops x y hne _ ih =>
    cases h' with
    | other _ _ _ _ _ hr => exact ih hr
    | times a b f _ _ _ _ _ => exact absurd rfl (hne _ rfl)
    | plus a b f _ _ _ _ _ => exact absurd rfl (hne _ rfl)
  | times a b f ops x y hg _ ih =>
    cases h' with
    | other _ _ _ _ hne _ => exact absurd rfl (hne _ rfl)
    | times a' b' f' _ _ _ hg' hr =>
      cases given_unique hg hg'
      exact ih hr
  | plus a b f ops x y hg _ ih =>
    cases h' with
    | other _ _ _ _ hne _ => exact absurd rfl (hne _ rfl)
    | plus a' b' f' _ _ _ hg' hr =>
      cases given_unique hg hg'
      exact ih hr

/-- A rule gives the value of the station at the elevation of the station. -/
theorem c78_at_station (rule : Rule K) (mo : ℕ) (x r : K)
    (h : match rule with
      | .same => True
      | .additive r' _ => r' = r
      | .multiplicative r' _ => r' = r
      | .threshold r' _ _ _ => r' = r) : rule.value mo r x = x := by
  cases rule with
  | same => rfl
  | additive r' g => have h : r' = r := h; subst h; simp [Rule.value]
  | multiplicative r' g => have h : r' = r := h; subst h; simp [Rule.value]
  | threshold r' g g2 limit =>
    have h : r' = r := h
    subst h
    simp only [Rule.value]
    split
    · simp
    · split
      · simp
      · next h1 h2 =>
        have : limit = r' := _root_.le_antisymm (not_lt.1 h1) (not_lt.1 h2)
        subst this
        simp

/-- **C78 (signs)**: precipitation, PET and the other variables that are not temperatures are never negative in the
table, whatever the gradients and the corrections. -/
theorem c78_nonneg (site : Site K) (ps : Option (Pars K)) (ops : List (Op K)) (s s' : State K)
    (h : apply site ps true ops s = .ok s') (o : Spat K) (hl : LastOf ops o)
    (hp : o.var ≠ .pet ∨ ∀ used f, .pet used f ∉ ops) (hv : ¬ Signed o.var) (i t : ℕ) (y : K)
    (hy : cell s' o.var i t = some y) : 0 ≤ y := by
  obtain ⟨s1, s2, s3, s4, h1, h2, h3, h4, hs'⟩ := apply_ok h
  subst hs'
  obtain ⟨opts, raw1, cols, hres, hraw1, hcols, hlook⟩ := stations_last h2 hl
  have hl4 : look o.var s4.spatial = some cols := by
    rw [(pets_keep ops h4).2 o.var hp]
    exact (grids_keep ops h3).2 o.var cols hlook
  rw [cell_look, hl4] at hy
  unfold columns at hcols
  obtain ⟨m, hm, hcols⟩ := ebind hcols
  split at hcols
  · obtain ⟨cs, hcs, hcols⟩ := ebind hcols
    cases hcols
    simp only [Option.bind_some, List.getElem?_map] at hy
    cases hci : cs[i]? with
    | none => rw [hci] at hy; simp at hy
    | some c =>
      rw [hci] at hy
      simp only [Option.map_some, Option.bind_some, List.getElem?_map, Option.map_eq_some_iff] at hy
      obtain ⟨x, _, hx⟩ := hy
      rw [← hx, clip_stored, stored, if_neg hv]
      exact le_max_right _ _
  · cases hcols

/-- **C78 (understood)**: when there is at least one unit, the operations go through only if every spatialisation (other
than with the threshold method) means a rule: the station elevation is given, the gradient is a `float` or a
list of one or twelve values. -/
theorem c78_understood (site : Site K) (ps : Option (Pars K)) (ops : List (Op K)) (s s' : State K)
    (h : apply site ps true ops s = .ok s') (hunits : site.elevs ≠ [])
    (o : Spat K) (hl : .station o ∈ ops) (hthr : o.method ≠ .threshold) : ∃ rule, Means ps o rule := by
  obtain ⟨s1, s2, s3, s4, h1, h2, h3, h4, hs'⟩ := apply_ok h
  obtain ⟨before, after, hops⟩ := List.append_of_mem hl
  subst hops
  unfold ofType at h2
  rw [List.foldlM_append] at h2
  obtain ⟨sa, _, h2⟩ := ebind h2
  rw [List.foldlM_cons] at h2
  obtain ⟨sb, h2, _⟩ := ebind h2
  simp only [stepOp, if_true, Bool.true_or] at h2
  obtain ⟨opts, hres, h2⟩ := ebind h2
  obtain ⟨raw, cols, _, hcols, _⟩ := spatialize_ok h2
  unfold columns at hcols
  obtain ⟨m, hm, hcols⟩ := ebind hcols
  split at hcols
  · obtain ⟨cs, hcs, hcols⟩ := ebind hcols
    obtain ⟨z, rest, hz⟩ := List.exists_cons_of_ne_nil hunits
    obtain ⟨_, hi⟩ := mapM_ok _ _ _ hcs
    obtain ⟨c, _, hc⟩ := hi 0 z (by rw [hz]; rfl)
    have gradRead : ∀ g, monthly site.months opts.gradient = .ok g → ∃ v G, GradientGiven ps o v ∧ IsGrad v G := by
      intro g hg
      unfold monthly at hg
      split at hg
      · next x hx => exact ⟨_, .fixed x, gradient_resolved hres hx, .inl rfl⟩
      · next xs hx =>
        split at hg
        · next h1 =>
          obtain ⟨a, ha⟩ := List.length_eq_one_iff.1 h1
          exact ⟨_, .fixed a, gradient_resolved hres hx, .inr (by rw [ha])⟩
        · split at hg
          · next h12 =>
            refine ⟨_, .monthly fun m => xs.getD (m - 1) 0, gradient_resolved hres hx, xs, rfl, h12, fun m h1 h2 => ?_⟩
            show xs[m - 1]? = some (xs.getD (m - 1) 0)
            rw [List.getD_eq_getElem?_getD, List.getElem?_eq_getElem (by omega)]
            rfl
          · cases hg
      · cases hg
    have refRead : ∀ r, number opts.ref = .ok r → ∃ b, Given ps o.ref (.num b r) := by
      intro r hr
      obtain ⟨b, hb⟩ := number_ok hr
      refine ⟨b, given_of_value ?_⟩
      rw [(resolve_ok hres).1, hb]
    have hmv : (o.method = m ∧ m ≠ .default) ∨ (o.method = .default ∧ ((o.var = .t ∧ m = .additive) ∨
        (o.var = .p ∧ m = .multiplicative) ∨ (o.var = .pet ∧ m = .constant))) := by
      cases hme : o.method with
      | default =>
        rw [hme] at hm
        right
        refine ⟨rfl, ?_⟩
        cases hvv : o.var <;> rw [hvv] at hm <;> simp only [Method.actual] at hm <;> cases hm <;> simp
      | constant => rw [hme] at hm; cases hm; exact .inl ⟨rfl, by decide⟩
      | additive => rw [hme] at hm; cases hm; exact .inl ⟨rfl, by decide⟩
      | multiplicative => rw [hme] at hm; cases hm; exact .inl ⟨rfl, by decide⟩
      | threshold => exact absurd hme hthr
    cases m with
    | default =>
      rcases hmv with ⟨_, h⟩ | ⟨_, ⟨_, h⟩ | ⟨_, h⟩ | ⟨_, h⟩⟩
      · exact absurd rfl h
      all_goals cases h
    | constant =>
      refine ⟨.same, ?_⟩
      rcases hmv with ⟨h, _⟩ | ⟨h, ⟨_, h'⟩ | ⟨_, h'⟩ | ⟨hv, h'⟩⟩
      · exact .inl h
      · cases h'
      · cases h'
      · exact .inr ⟨h, hv⟩
    | additive =>
      simp only [column] at hc
      obtain ⟨r, hr, hc⟩ := ebind hc
      obtain ⟨g, hg, hc⟩ := ebind hc
      obtain ⟨v, G, hv, hG⟩ := gradRead g hg
      refine ⟨.additive r G, ?_, refRead r hr, v, hv, hG⟩
      rcases hmv with ⟨h, _⟩ | ⟨h, ⟨hv, h'⟩ | ⟨_, h'⟩ | ⟨_, h'⟩⟩
      · exact .inl h
      · exact .inr ⟨h, hv⟩
      · cases h'
      · cases h'
    | multiplicative =>
      simp only [column] at hc
      obtain ⟨r, hr, hc⟩ := ebind hc
      obtain ⟨g, hg, hc⟩ := ebind hc
      obtain ⟨v, G, hv, hG⟩ := gradRead g hg
      refine ⟨.multiplicative r G, ?_, refRead r hr, v, hv, hG⟩
      rcases hmv with ⟨h, _⟩ | ⟨h, ⟨_, h'⟩ | ⟨hv, h'⟩ | ⟨_, h'⟩⟩
      · exact .inl h
      · cases h'
      · exact .inr ⟨h, hv⟩
      · cases h'
    | threshold =>
      rcases hmv with ⟨h, _⟩ | ⟨_, ⟨_, h⟩ | ⟨_, h⟩ | ⟨_, h⟩⟩
      · exact absurd h hthr
      all_goals cases h
  · cases hcols

/-- **C78 (length)**: whatever the method, a list of gradients has one or twelve values, or the operations are refused. -/
theorem c78_gradient_length (site : Site K) (ps : Option (Pars K)) (ops : List (Op K)) (s s' : State K)
    (h : apply site ps true ops s = .ok s') (o : Spat K) (hl : .station o ∈ ops) (xs : List K)
    (hg : GradientGiven ps o (.list xs)) : xs.length = 1 ∨ xs.length = 12 := by
  obtain ⟨s1, s2, s3, s4, h1, h2, h3, h4, hs'⟩ := apply_ok h
  obtain ⟨before, after, hops⟩ := List.append_of_mem hl
  subst hops
  unfold ofType at h2
  rw [List.foldlM_append] at h2
  obtain ⟨sa, _, h2⟩ := ebind h2
  rw [List.foldlM_cons] at h2
  obtain ⟨sb, h2, _⟩ := ebind h2
  simp only [stepOp, if_true, Bool.true_or] at h2
  obtain ⟨opts, hres, h2⟩ := ebind h2
  obtain ⟨raw, cols, _, hcols, _⟩ := spatialize_ok h2
  unfold columns at hcols
  obtain ⟨m, hm, hcols⟩ := ebind hcols
  split at hcols
  · next hlen =>
    rw [resolve_gradient hres hg] at hlen
    simpa [gradientLength] using hlen
  · cases hcols

/-- **C78 (PET)**: the potential evapotranspiration of a unit is the formula of the last PET operation applied to the
values of that same unit found in the final table. -/
theorem c78_pet (site : Site K) (ps : Option (Pars K)) (ops : List (Op K)) (s s' : State K)
    (h : apply site ps true ops s = .ok s') (before after : List (Op K)) (used : List Var)
    (f : ℕ → List (List K) → List K) (hops : ops = before ++ .pet used f :: after)
    (hlast : ∀ u g, .pet u g ∉ after) (hu : Var.pet ∉ used) (i : ℕ) (hi : i < site.elevs.length) :
    ((look .pet s'.spatial).bind fun cols => cols[i]?) =
      some (f i (used.map fun v => ((look v s'.spatial).getD []).getD i [])) := by
  obtain ⟨s1, s2, s3, s4, h1, h2, h3, h4, hs'⟩ := apply_ok h
  subst hs'
  subst hops
  unfold ofType at h4
  rw [List.foldlM_append] at h4
  obtain ⟨sa, _, h4⟩ := ebind h4
  rw [List.foldlM_cons] at h4
  obtain ⟨sb, hb, h4⟩ := ebind h4
  obtain ⟨_, hkeep⟩ := pets_keep (site := site) (ps := ps) (all := true) after h4
  simp only [stepOp, if_true] at hb
  split at hb
  · cases hb
  · next tables htab =>
    cases hb
    have hpet := hkeep .pet (.inr hlast)
    simp only [look_store, if_true] at hpet
    show ((look .pet s4.spatial).bind fun cols => cols[i]?) =
      some (f i (used.map fun v => ((look v s4.spatial).getD []).getD i []))
    rw [hpet]
    simp only [Option.bind_some, List.getElem?_map, List.getElem?_range hi, Option.map_some]
    congr 2
    have hmap : ∀ (us : List Var) (tb : List (List (List K))), Var.pet ∉ us →
        us.mapM (fun v => look v sa.spatial) = some tb →
        tb.map (fun tb => tb.getD i []) = us.map fun v => ((look v s4.spatial).getD []).getD i [] := by
      intro us
      induction us with
      | nil => intro tb _ htb; rw [List.mapM_nil] at htb; cases htb; rfl
      | cons v us ih =>
        intro tb hne htb
        rw [List.mapM_cons] at htb
        cases hlv : look v sa.spatial with
        | none => rw [hlv] at htb; cases htb
        | some cv =>
          cases hrest : us.mapM (fun v => look v sa.spatial) with
          | none => rw [hlv, hrest] at htb; cases htb
          | some tr =>
            rw [hlv, hrest] at htb
            cases htb
            have hvne : v ≠ .pet := fun e => hne (e ▸ List.mem_cons_self)
            have hk := hkeep v (.inl hvne)
            simp only [look_store, if_neg hvne] at hk
            rw [List.map_cons, List.map_cons, ih tr (fun e => hne (List.mem_cons_of_mem _ e)) hrest, hk, hlv]
            rfl
    exact hmap used tables hu htab

end

end HB.ForcingOps
