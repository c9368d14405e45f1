import Verif.Props.ForcingOps

/-!
# C78 (continued): totals, calibration, and where the operations go wrong
-/

namespace HB.ForcingOps

open HB.Spec.ForcingOps

set_option linter.unusedSectionVars false

section
variable {K : Type} [Field K] [LinearOrder K]

theorem sum_getD (l : List K) : l.sum = ∑ t ∈ Finset.range l.length, l.getD t 0 := by
  induction l with
  | nil => simp
  | cons a l ih =>
    rw [List.sum_cons, List.length_cons, Finset.sum_range_succ', ih, add_comm]
    simp

/-- **C78 (total)**: the total precipitation reported is the sum over the times of the mean over the units weighted by
their areas. -/
theorem c78_total (site : Site K) (s : State K) (n : ℕ) (cols : List (List K))
    (hcols : look .p s.spatial = some cols) (hn : ∀ c ∈ cols, c.length = n) (hareas : site.areas.length = cols.length) :
    totalPrecipitation site s =
      some (∑ t ∈ Finset.range n, ∑ i ∈ Finset.range cols.length,
        site.areas.getD i 0 / site.areas.sum * (cell s .p i t).getD 0) := by
  unfold totalPrecipitation
  rw [hcols, Option.map_some, Finset.sum_comm]
  congr 1
  rw [sum_getD]
  have hl : (List.zipWith (fun c a => c.sum * a / site.areas.sum) cols site.areas).length = cols.length := by
    simp [hareas]
  rw [hl]
  refine Finset.sum_congr rfl fun i hi => ?_
  have hi' : i < cols.length := Finset.mem_range.1 hi
  have e1 : cols[i]? = some cols[i] := List.getElem?_eq_getElem hi'
  have e2 : site.areas[i]? = some (site.areas.getD i 0) := by
    rw [List.getD_eq_getElem?_getD, List.getElem?_eq_getElem (by omega)]; rfl
  rw [List.getD_eq_getElem?_getD, List.getElem?_zipWith, e1, e2]
  simp only [Option.getD_some]
  rw [sum_getD, hn _ (List.getElem_mem hi'), ← Finset.mul_sum]
  have e3 : ∀ t ∈ Finset.range n, (cell s .p i t).getD 0 = cols[i].getD t 0 := by
    intro t _
    rw [cell_look, hcols]
    simp only [Option.bind_some, e1]
    rw [List.getD_eq_getElem?_getD]
  rw [Finset.sum_congr rfl e3]
  ring

/-! ### re-application during a calibration -/

/-- The names of a table. -/
def names {α : Type} (l : List (Var × α)) : List Var := l.map (·.1)

theorem look_none {α : Type} (v : Var) (l : List (Var × α)) (h : v ∉ names l) : look v l = none := by
  induction l with
  | nil => rfl
  | cons e l ih =>
    obtain ⟨w, a⟩ := e
    simp only [names, List.map_cons, List.mem_cons, not_or] at h
    simp only [look, if_neg (Ne.symm h.1)]
    exact ih h.2

theorem store_middle {α : Type} (v : Var) (a b : α) (l k : List (Var × α)) (h : v ∉ names l) :
    store v a (l ++ (v, b) :: k) = l ++ (v, a) :: k := by
  unfold store
  rw [look_append, look_none v l h]
  simp only [look, if_true, Option.or_some, Option.isSome_some, Option.none_or]
  induction l with
  | nil => simp [put]
  | cons e l ih =>
    obtain ⟨w, c⟩ := e
    simp only [names, List.map_cons, List.mem_cons, not_or] at h
    simp only [List.cons_append, put, if_neg (Ne.symm h.1)]
    rw [ih h.2]

theorem store_new {α : Type} (v : Var) (a : α) (l : List (Var × α)) (h : v ∉ names l) : store v a l = l ++ [(v, a)] := by
  unfold store
  rw [look_none v l h]
  rfl

/-- The variables spatialised from a station, in the order of the operations. -/
def stationVars : List (Op K) → List Var
  | [] => []
  | .station o :: ops => o.var :: stationVars ops
  | _ :: ops => stationVars ops

/-- The tables added by the gridded operations. -/
def gridded : List (Op K) → List (Var × List (List K))
  | [] => []
  | .grid v cols :: ops => (v, cols) :: gridded ops
  | _ :: ops => gridded ops

theorem value_same {p1 p2 : Pars K} (hag : ∀ n, n ∉ p2.allow → p1.get n = p2.get n) {a : Option (Arg K)}
    (hc : optChanging (some p2) a = false) : optValue (some p1) a = optValue (some p2) a := by
  cases a with
  | none => rfl
  | some a =>
    cases a with
    | val v => rfl
    | param n =>
      simp only [optChanging, Arg.changing, decide_eq_false_iff_not] at hc
      exact hag n hc

theorem resolve_same {p1 p2 : Pars K} (hag : ∀ n, n ∉ p2.allow → p1.get n = p2.get n) {o : Spat K}
    (hc : o.changing (some p2) = false) : o.resolve (some p1) = o.resolve (some p2) := by
  simp only [Spat.changing, Bool.or_eq_false_iff] at hc
  obtain ⟨⟨⟨⟨h1, h2⟩, h3⟩, h4⟩, h5⟩ := hc
  simp only [Spat.resolve, value_same hag h1, value_same hag h2, value_same hag h3, value_same hag h4,
    value_same hag h5]

/-- The corrections, when none of them may change. -/
theorem corrections_same (site : Site K) {p1 p2 : Pars K} (hag : ∀ n, n ∉ p2.allow → p1.get n = p2.get n)
    (ops : List (Op K)) (hcorr : ∀ c, .correct c ∈ ops → c.factor.changing (some p2) = false) :
    (∀ s, ofType site (some p1) true ops s 0 = ofType site (some p2) true ops s 0) ∧
      ∀ s s', ofType site (some p2) true ops s 0 = .ok s' → ∀ r, ofType site (some p2) false ops r 0 = .ok r := by
  induction ops with
  | nil => exact ⟨fun _ => rfl, fun _ _ _ _ => rfl⟩
  | cons op ops ih =>
    obtain ⟨ih1, ih2⟩ := ih fun c hc => hcorr c (List.mem_cons_of_mem _ hc)
    constructor
    · intro s
      unfold ofType
      rw [List.foldlM_cons, List.foldlM_cons]
      have : stepOp site (some p1) true 0 s op = stepOp site (some p2) true 0 s op := by
        cases op with
        | correct c =>
          have := value_same hag (a := some c.factor) (hcorr c List.mem_cons_self)
          simp only [optValue] at this
          simp only [stepOp, this, Bool.true_or]
        | station o => rfl
        | grid w cs => rfl
        | pet u f => rfl
      rw [this]
      cases hst : stepOp site (some p2) true 0 s op with
      | error e => rfl
      | ok s1 => exact ih1 s1
    · intro s s' h r
      unfold ofType at h ⊢
      rw [List.foldlM_cons] at h ⊢
      obtain ⟨s1, h1, h⟩ := ebind h
      have : stepOp site (some p2) false 0 r op = .ok r := by
        cases op with
        | correct c =>
          simp only [stepOp, if_true, Bool.true_or] at h1
          obtain ⟨f, hf, _⟩ := ebind h1
          simp only [stepOp, if_true, hf, hcorr c List.mem_cons_self]
          rfl
        | station o => rfl
        | grid w cs => rfl
        | pet u f => rfl
      rw [this]
      exact ih2 s1 s' h r

theorem grids_all (site : Site K) (ps : Option (Pars K)) (ops : List (Op K)) (s : State K) :
    ofType site ps true ops s 2 = .ok { s with spatial := s.spatial ++ gridded ops } := by
  induction ops generalizing s with
  | nil => simp [ofType, gridded]; rfl
  | cons op ops ih =>
    unfold ofType
    rw [List.foldlM_cons]
    cases op with
    | grid v cols =>
      refine (ih _).trans ?_
      simp [gridded]
    | correct c => exact ih s
    | station o => exact ih s
    | pet u f => exact ih s

theorem grids_none (site : Site K) (ps : Option (Pars K)) (ops : List (Op K)) (s : State K) :
    ofType site ps false ops s 2 = .ok s := by
  induction ops generalizing s with
  | nil => rfl
  | cons op ops ih =>
    unfold ofType
    rw [List.foldlM_cons]
    cases op <;> exact ih s

theorem pets_none (site : Site K) (ps : Option (Pars K)) (all : Bool) (ops : List (Op K))
    (hp : ∀ u f, .pet u f ∉ ops) (s : State K) : ofType site ps all ops s 3 = .ok s := by
  induction ops generalizing s with
  | nil => rfl
  | cons op ops ih =>
    have hp' : ∀ u f, .pet u f ∉ ops := fun u f h => hp u f (List.mem_cons_of_mem _ h)
    unfold ofType
    rw [List.foldlM_cons]
    cases op with
    | pet u f => exact absurd List.mem_cons_self (hp u f)
    | correct c => exact ih hp' s
    | station o => exact ih hp' s
    | grid w cs => exact ih hp' s

theorem stations_again (site : Site K) {p1 p2 : Pars K} (hag : ∀ n, n ∉ p2.allow → p1.get n = p2.get n)
    (ops : List (Op K)) (st : List (Var × List K)) (b b' b2 : Bool) (pre1 pre2 G : List (Var × List (List K)))
    (hnd : (stationVars ops).Nodup) (h1 : ∀ v ∈ stationVars ops, v ∉ names pre1)
    (h2 : ∀ v ∈ stationVars ops, v ∉ names pre2) (s1 : State K)
    (happ : ofType site (some p1) true ops ⟨st, pre1, b⟩ 1 = .ok s1) :
    ∃ rest, s1 = ⟨st, pre1 ++ rest, b⟩ ∧
      ofType site (some p2) false ops ⟨st, pre2 ++ rest ++ G, b'⟩ 1 =
        (ofType site (some p2) true ops ⟨st, pre2, b2⟩ 1).map fun s => ⟨st, s.spatial ++ G, b'⟩ := by
  induction ops generalizing pre1 pre2 with
  | nil =>
    cases happ
    exact ⟨[], by simp, by simp [ofType]; rfl⟩
  | cons op ops ih =>
    cases op with
    | correct c => exact ih pre1 pre2 hnd h1 h2 happ
    | grid v cols => exact ih pre1 pre2 hnd h1 h2 happ
    | pet u f => exact ih pre1 pre2 hnd h1 h2 happ
    | station o =>
      simp only [stationVars, List.nodup_cons] at hnd
      simp only [stationVars, List.mem_cons, forall_eq_or_imp] at h1 h2
      unfold ofType at happ
      rw [List.foldlM_cons] at happ
      obtain ⟨sa, hsa, happ⟩ := ebind happ
      simp only [stepOp, if_true, Bool.true_or] at hsa
      obtain ⟨opts, hres, hsa⟩ := ebind hsa
      obtain ⟨raw, cols, hraw, hcols, hs⟩ := spatialize_ok hsa
      subst hs
      simp only at happ hraw
      rw [store_new o.var cols pre1 h1.1] at happ
      have ihx := fun cols2 => ih (pre1 ++ [(o.var, cols)]) (pre2 ++ [(o.var, cols2)]) hnd.2
        (fun v hv => by
          simp only [names, List.map_append, List.map_cons, List.map_nil, List.mem_append, List.mem_singleton, not_or]
          exact ⟨h1.2 v hv, fun e => hnd.1 (e ▸ hv)⟩)
        (fun v hv => by
          simp only [names, List.map_append, List.map_cons, List.map_nil, List.mem_append, List.mem_singleton, not_or]
          exact ⟨h2.2 v hv, fun e => hnd.1 (e ▸ hv)⟩) happ
      obtain ⟨rest, hrest, _⟩ := ihx []
      refine ⟨(o.var, cols) :: rest, by rw [hrest]; simp, ?_⟩
      have next : ∀ cols2, ofType site (some p2) false ops ⟨st, pre2 ++ (o.var, cols2) :: rest ++ G, b'⟩ 1 =
          (ofType site (some p2) true ops ⟨st, pre2 ++ [(o.var, cols2)], b2⟩ 1).map
            fun s => (⟨st, s.spatial ++ G, b'⟩ : State K) := by
        intro cols2
        obtain ⟨rest', hrest', hx⟩ := ihx cols2
        have : rest' = rest := by
          rw [hrest] at hrest'
          simpa using hrest'.symm
        subst this
        simpa using hx
      unfold ofType at next ⊢
      rw [List.foldlM_cons, List.foldlM_cons]
      simp only [stepOp, if_true, Bool.true_or, Bool.false_or]
      by_cases hch : o.changing (some p2) = true
      · simp only [hch, if_true]
        cases hr2 : o.resolve (some p2) with
        | error e => rfl
        | ok opts2 =>
          show (spatialize site _ o opts2 >>= _) = ((spatialize site _ o opts2) >>= _).map _
          simp only [spatialize, hraw]
          cases hc2 : columns site o.var o.method opts2 raw with
          | error e => rfl
          | ok cols2 =>
            have e1 : store o.var cols2 (pre2 ++ (o.var, cols) :: rest ++ G) = pre2 ++ (o.var, cols2) :: rest ++ G := by
              rw [List.append_assoc, List.cons_append, store_middle o.var cols2 cols pre2 _ h2.1]
              simp
            have e2 := store_new o.var cols2 pre2 h2.1
            refine Eq.trans ?_ ((next cols2).trans ?_)
            · show List.foldlM _ (⟨st, store o.var cols2 (pre2 ++ (o.var, cols) :: rest ++ G), b'⟩ : State K) ops = _
              rw [e1]
            · show _ = Except.map _ (List.foldlM _ (⟨st, store o.var cols2 pre2, b2⟩ : State K) ops)
              rw [e2]
      · have hch' : o.changing (some p2) = false := by simpa using hch
        have hr2 : o.resolve (some p2) = .ok opts := by rw [← resolve_same hag hch']; exact hres
        rw [hr2, hch']
        refine Eq.trans ?_ ((next cols).trans ?_)
        · rfl
        · show _ = Except.map _ (spatialize site ⟨st, pre2, b2⟩ o opts >>= _)
          simp only [spatialize, hraw, hcols]
          show _ = Except.map _ (List.foldlM _ (⟨st, store o.var cols pre2, b2⟩ : State K) ops)
          rw [store_new o.var cols pre2 h2.1]

/-- **C78 (calibration)**: after a first application with the parameters `p1`, re-applying only the operations that depend on
a parameter allowed to change, with the parameters `p2`, leaves exactly the same state (or the same exception) as a fresh
application of everything with `p2`: when each variable is spatialised once, no correction depends on a parameter
allowed to change, and no PET is computed.  The findings below show each of these conditions is needed. -/
theorem c78_reapplied (site : Site K) (p1 p2 : Pars K) (hag : ∀ n, n ∉ p2.allow → p1.get n = p2.get n)
    (ops : List (Op K)) (hcorr : ∀ c, .correct c ∈ ops → c.factor.changing (some p2) = false)
    (hnd : (stationVars ops).Nodup) (hpet : ∀ u f, .pet u f ∉ ops)
    (s s1 : State K) (hs : s.spatial = []) (h1 : apply site (some p1) true ops s = .ok s1) :
    apply site (some p2) false ops s1 = apply site (some p2) true ops s := by
  obtain ⟨a1, a2, a3, a4, e1, e2, e3, e4, hs1⟩ := apply_ok h1
  rw [grids_all] at e3
  rw [pets_none _ _ _ _ hpet] at e4
  cases e3
  cases e4
  subst hs1
  obtain ⟨c1, c2⟩ := corrections_same site hag ops hcorr
  rw [c1] at e1
  have hsp := (corrections site (some p2) ops s a1 e1).1
  rw [hs] at hsp
  obtain ⟨st, sp, b⟩ := a1
  simp only at hsp
  subst hsp
  obtain ⟨rest, hrest, hst⟩ := stations_again site hag ops st b true b [] [] (gridded ops) hnd (by simp [names])
    (by simp [names]) a2 e2
  subst hrest
  unfold apply
  rw [c2 s _ e1, e1]
  simp only [List.nil_append] at hst ⊢
  show (ofType site (some p2) false ops ⟨st, rest ++ gridded ops, true⟩ 1 >>= _) =
    (ofType site (some p2) true ops ⟨st, [], b⟩ 1 >>= _)
  rw [hst]
  cases hfin : ofType site (some p2) true ops ⟨st, [], b⟩ 1 with
  | error e => rfl
  | ok s2 =>
    have hkeep := (stations_keep ops hfin).1
    show (ofType site (some p2) false ops ⟨st, s2.spatial ++ gridded ops, true⟩ 2 >>= _) =
      (ofType site (some p2) true ops s2 2 >>= _)
    rw [grids_none, grids_all]
    show (ofType site (some p2) false ops ⟨st, s2.spatial ++ gridded ops, true⟩ 3 >>= _) =
      (ofType site (some p2) true ops _ 3 >>= _)
    rw [pets_none _ _ _ _ hpet, pets_none _ _ _ _ hpet]
    show Except.ok (⟨st, s2.spatial ++ gridded ops, true⟩ : State K) =
      Except.ok (⟨s2.station, s2.spatial ++ gridded ops, true⟩ : State K)
    rw [hkeep]

/-- **C78 (finding)**: a forcing already applied is left as it is by a run, whatever the parameters of the run. -/
theorem c78_stale_run (site : Site K) (p1 p2 : Pars K) (ops : List (Op K)) (s s1 : State K)
    (h : forRun site p1 ops s = .ok s1) : forRun site p2 ops s1 = .ok s1 := by
  have : s1.applied = true := by
    unfold forRun at h
    split at h
    · next hb => cases h; exact hb
    · obtain ⟨_, _, _, _, _, _, _, _, hs⟩ := apply_ok h
      rw [hs]
  unfold forRun
  rw [if_pos this]

/-- **C78 (handed over)**: a table goes through `set_forcing` exactly when it holds no other variable than precipitation,
temperature (mean, minimum, maximum), solar radiation and PET. -/
theorem c78_handed_over (s : State K) :
    handedOver s = true ↔ ∀ e ∈ s.spatial, e.1 = .p ∨ e.1 = .t ∨ e.1 = .tMin ∨ e.1 = .tMax ∨ e.1 = .rSolar ∨ e.1 = .pet := by
  have key : ∀ v : Var, v.name ∈ coreNames ↔ v = .p ∨ v = .t ∨ v = .tMin ∨ v = .tMax ∨ v = .rSolar ∨ v = .pet := by
    intro v
    cases v <;> decide
  simp only [handedOver, List.all_eq_true, decide_eq_true_eq, key]

end

/-! ### examples and findings -/

namespace ForcingDemo

/-- Two units, three days (January, January, July). -/
def site : Site ℚ := ⟨[500, 1500], [1000, 3000], [1, 1, 7]⟩

def loaded : State ℚ := ⟨[(.p, [10, 0, 4]), (.t, [-2, 3, 15])], [], false⟩

def pars (x : ℚ) : Pars ℚ := ⟨fun n => if n = "grad" then .ok (some (.num false x)) else if n = "factor" then .ok (some (.num false x))
  else .error "The parameter was not found", ["grad", "factor"]⟩

def opT : Spat ℚ := { var := .t, ref := some (.val (.num false 1000)), gradient := some (.val (.num false (-6/10))) }
def opP : Spat ℚ := { var := .p, ref := some (.val (.num true 500)), gradient := some (.param "grad") }
def ops : List (Op ℚ) := [.station opT, .correct ⟨.p, true, .val (.num false 2)⟩, .station opP]

def tables (r : Except String (State ℚ)) : Option (List (Var × List (List ℚ))) := r.toOption.map (·.spatial)

/-- The operations of a usual set-up and the values they give. -/
theorem c78_demo : tables (apply site (some (pars (5/100))) true ops loaded) =
    some [(.t, [[1, 6, 18], [-5, 0, 12]]), (.p, [[20, 0, 8], [30, 0, 12]])] := by decide +kernel

theorem meets : Means (some (pars (5/100))) opT (.additive 1000 (.fixed (-6/10))) ∧
    Means (some (pars (5/100))) opP (.multiplicative 500 (.fixed (5/100))) ∧ LastOf ops opT ∧ LastOf ops opP ∧
    Rectangular site loaded ∧ Months site := by
  refine ⟨⟨.inr ⟨rfl, rfl⟩, ⟨false, .inl rfl⟩, _, .inl (.inl rfl), .inl rfl⟩,
    ⟨.inr ⟨rfl, rfl⟩, ⟨true, .inl rfl⟩, .num false (5/100), .inl (.inr ⟨_, _, rfl, rfl, rfl⟩), .inl rfl⟩,
    ⟨[], _, rfl, ?_⟩, ⟨[_, _], [], rfl, by simp⟩, ?_, ?_⟩
  · intro o' ho'
    simp only [List.mem_cons, Op.station.injEq, reduceCtorEq, List.not_mem_nil, or_false, false_or] at ho'
    subst ho'
    decide
  · intro e he
    simp only [loaded, List.mem_cons, List.not_mem_nil, or_false] at he
    rcases he with h | h <;> subst h <;> rfl
  · intro m hm
    simp only [site, List.mem_cons, List.not_mem_nil, or_false] at hm
    rcases hm with h | h | h <;> subst h <;> decide

/-- The first applications and the re-application of `c78_reapplied`, on the example. -/
theorem c78_reapplied_demo :
    tables ((apply site (some (pars (5/100))) true ops loaded).bind fun s => apply site (some (pars (1/10))) false ops s) =
      some [(.t, [[1, 6, 18], [-5, 0, 12]]), (.p, [[20, 0, 8], [40, 0, 16]])] := by decide +kernel

/-- The total precipitation of the example. -/
theorem c78_total_demo :
    ((apply site (some (pars (5/100))) true ops loaded).toOption.bind (totalPrecipitation site)) = some (154/4) := by
  decide +kernel

/-! #### findings -/

def opsFactor : List (Op ℚ) := [.correct ⟨.p, true, .param "factor"⟩, .station { opP with gradient := some (.val (.num false 0)) }]

/-- A correction factor that is calibrated, with a spatialisation that has no calibrated option: the corrected values never
reach the table. -/
theorem c78_correction_ignored :
    tables ((apply site (some (pars 1)) true opsFactor loaded).bind fun s => apply site (some (pars 3)) false opsFactor s) =
      some [(.p, [[10, 0, 4], [10, 0, 4]])] ∧
    tables (apply site (some (pars 3)) true opsFactor loaded) = some [(.p, [[30, 0, 12], [30, 0, 12]])] := by
  constructor <;> decide +kernel

def opsBoth : List (Op ℚ) := [.correct ⟨.p, true, .param "factor"⟩, .station opP]
def parsBoth (f g : ℚ) : Pars ℚ :=
  ⟨fun n => if n = "grad" then .ok (some (.num false g)) else if n = "factor" then .ok (some (.num false f))
    else .error "The parameter was not found", ["grad", "factor"]⟩

/-- A calibrated correction factor is applied again on the already corrected data: at the third evaluation with the same
factor 2 the precipitation is multiplied by 8. -/
theorem c78_correction_compounds :
    tables (((apply site (some (parsBoth 2 0)) true opsBoth loaded).bind fun s =>
      apply site (some (parsBoth 2 0)) false opsBoth s).bind fun s => apply site (some (parsBoth 2 0)) false opsBoth s) =
      some [(.p, [[80, 0, 32], [80, 0, 32]])] ∧
    tables (apply site (some (parsBoth 2 0)) true opsBoth loaded) = some [(.p, [[20, 0, 8], [20, 0, 8]])] := by
  constructor <;> decide +kernel

/-- Applying twice the operations of a forcing doubles a fixed correction too. -/
theorem c78_applied_twice :
    tables ((apply site (some (pars 0)) true ops loaded).bind fun s => apply site (some (pars 0)) true ops s) =
      some [(.t, [[1, 6, 18], [-5, 0, 12]]), (.p, [[40, 0, 16], [40, 0, 16]])] := by decide +kernel

def opsPet : List (Op ℚ) :=
  [.station { opT with gradient := some (.param "grad") }, .pet [.t] fun _ l => (l.getD 0 []).map (· + 10)]

/-- PET computed from a temperature whose gradient is calibrated is not computed again. -/
theorem c78_pet_stale :
    tables ((apply site (some (pars 0)) true opsPet loaded).bind fun s => apply site (some (pars (-1))) false opsPet s) =
      some [(.t, [[3, 8, 20], [-7, -2, 10]]), (.pet, [[8, 13, 25], [8, 13, 25]])] ∧
    tables (apply site (some (pars (-1))) true opsPet loaded) =
      some [(.t, [[3, 8, 20], [-7, -2, 10]]), (.pet, [[13, 18, 30], [3, 8, 20]])] := by
  constructor <;> decide +kernel

/-- An integer gradient is refused (`gradient=0`). -/
theorem c78_integer_gradient :
    tables (apply site none true [.station { opP with gradient := some (.val (.num true 0)) }] loaded) = none ∧
    tables (apply site none true [.station { opP with gradient := some (.val (.num false 0)) }] loaded) =
      some [(.p, [[10, 0, 4], [10, 0, 4]])] := by
  constructor <;> decide +kernel

/-- Above the threshold, with a station above the threshold too, the second gradient starts at the station; below the
threshold the first gradient also starts at the station: the value jumps at the threshold. -/
theorem c78_threshold_jump :
    (Rule.threshold (2000 : ℚ) (1/100) (5/100) 1500).value 1 1500 10 = 10 * (1 - 25/100) ∧
    (Rule.threshold (2000 : ℚ) (1/100) (5/100) 1500).value 1 (1500 - 1/1000) 10 = 10 * (1 - 5/100) - 1/1000000 := by
  constructor <;> decide +kernel

/-- The same gridded variable applied twice gives two tables with the same name. -/
theorem c78_grid_twice :
    tables ((apply site none true [.grid .p [[1], [2]]] loaded).bind fun s =>
      apply site none true [.grid .p [[1], [2]]] s) = some [(.p, [[1], [2]]), (.p, [[1], [2]])] := by decide +kernel

/-- A relative humidity spatialised to compute PET makes the hand-over of the forcing to the model fail. -/
theorem c78_not_handed_over :
    ((apply site none true [.station { var := .rh, method := .constant }] ⟨[(.rh, [80, 70, 60])], [], false⟩).toOption.map
      handedOver) = some false := by decide +kernel

end ForcingDemo

end HB.ForcingOps
