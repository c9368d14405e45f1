import Verif.Model.ReadLemmas
import Verif.Props.Clock

/-!
# C40, C41, C54: what a run reads from its forcing

All theorems quantify over the physical model, the forcing series, the actions and the dated parameters.
-/

set_option linter.unusedSectionVars false

namespace HB

section
variable {K W A P R : Type} [Field K] [LinearOrder K] [IsStrictOrderedRing K] [FloorRing K]

/-! ## C54: forcing overrides last one step -/

/-- Specification: value of the series of unit `u` and variable `v`, `k` entries after the position found for `start`. -/
def seriesValue (start : K) (l : List (DSeries K)) (k : ℕ) (u : ℤ) (v : VarType) : Option K :=
  (attached l u v).bind fun r => r.values[(r.setCursor start).1.cursor + k]?

theorem baseRead_seriesValue (start : K) (l : List (DSeries K)) (k : ℕ) :
    baseRead (shiftAll k (atAll start l)) = seriesValue start l k := by
  funext u v
  rw [baseRead_shift, attached_at, seriesValue]
  cases h : attached l u v with
  | none => rfl
  | some r =>
    simp only [Option.map_some, Option.bind_some]
    rw [(RegSeries.at_fields start r).1]; rfl

/-- **C54.** In a run started without pending overrides, for every model and forcing: in each step (spin-up included)
every reader sees the last value written to that forcing in the same step, and the series entry of that step if nothing
was written in the step.  The `i`-th step of the spin-up and of the run read the `i`-th entry after the start position, and
nothing is left overridden at the end. -/
theorem c54_overrides_last_one_step (c : RunCfg K W A P R) (fuel : ℕ) (s s' : RunSt K W A P R) (hd : s.date = c.start)
    (ho : s.over = fun _ _ => none) (h : run c fuel s = .ok s') :
    (∃ spinReads runReads, s'.reads = s.reads ++ spinReads ++ runReads ∧ spinReads.length = c.spin ∧
      s'.cursor = s.cursor + runReads.length ∧
      (∀ i evs, spinReads[i]? = some evs → Coherent (seriesValue c.start s.series i) evs) ∧
      (∀ i evs, runReads[i]? = some evs → Coherent (seriesValue c.start s.series i) evs)) ∧
    s'.over = fun _ _ => none := by
  obtain ⟨-, ls, lm, h1, h2, h3, h4, h5, h6, -⟩ := run_reads hd ho h
  refine ⟨⟨ls, lm, h1, h2, h3, ?_, ?_⟩, h6⟩
  · intro i evs hi; have := h4 i evs hi; rwa [zero_add, baseRead_seriesValue] at this
  · intro i evs hi; have := h5 i evs hi; rwa [zero_add, baseRead_seriesValue] at this

/-! ## C40: the value read is the value dated at the step -/

/-- When the start position is right: the series has the model's step, and the period starts at the series start, or a
whole number of days later with a step of one time unit. -/
structure Aligned (start dt : K) (r : RegSeries K) : Prop where
  step : (r.step : K) * unitDays r.unit = dt
  offset : start = r.start ∨ (r.step = 1 ∧ ∃ k : ℕ, start = r.start + k)

theorem cursor_aligned {start dt : K} {r : RegSeries K} (ha : Aligned start dt r) (h : (r.setCursor start).2 = true) :
    r.start + ((r.setCursor start).1.cursor : K) * (r.step * unitDays r.unit) = start := by
  unfold RegSeries.setCursor at h ⊢
  split at h
  · cases h
  · rename_i h1
    split at h
    · cases h
    · rename_i h2
      rw [if_neg h1, if_neg h2]
      rcases ha.offset with e | ⟨hs, k, e⟩
      · rw [e]
        cases hu : r.unit <;> simp [hu] at h ⊢
      · rw [e, hs]
        cases hu : r.unit <;> simp [hu, unitDays] at h ⊢
        all_goals field_simp

/-- **C40 (aligned forcing).** With exact arithmetic, for every model and every forcing whose series all have the model's
step and start either at the start of the period or, with a step of one unit, a whole number of days before: at every step
of the run and of the spin-up, each value read from a series is the one dated at the date of that step.  Missing for the
full property: series with another step or offset, which are accepted and read at wrong dates, see
`c40_hour_offset_misread`, `c40_three_hourly_misread` and `c40_other_step_misread`. -/
theorem c40_reads_current_date_partial (c : RunCfg K W A P R) (hr : ∀ x, c.rnd x = x) (hdt : 0 < c.dt)
    (hse : c.start ≤ c.stop) (fuel : ℕ) (s s' : RunSt K W A P R) (hd : s.date = c.start) (hc : s.cursor = 0)
    (ho : s.over = fun _ _ => none) (ha : ∀ u v r, attached s.series u v = some r → Aligned c.start c.dt r)
    (h : run c fuel s = .ok s') :
    ∃ spinReads runReads, s'.reads = s.reads ++ spinReads ++ runReads ∧ spinReads.length = c.spin ∧
      runReads.length = ⌊(c.stop - c.start) / c.dt⌋.toNat + 1 ∧
      ∀ (i : ℕ) evs, (spinReads[i]? = some evs ∨ runReads[i]? = some evs) → ∀ u v x, ReadFromSeries evs u v x →
        ∃ r, attached s.series u v = some r ∧ DatedAt r (c.start + i * c.dt) x := by
  obtain ⟨hset, ls, lm, h1, h2, h3, h4, h5, h6, -⟩ := run_reads hd ho h
  have hb := floor_bounds hdt (sub_nonneg.2 hse)
  have hle : ∀ j, j < ⌊(c.stop - c.start) / c.dt⌋.toNat + 1 → clk c j ≤ c.stop := by
    intro j hj; rw [clk_exact hr]; have := hb.1 j hj; linarith
  have hM : c.stop < clk c (⌊(c.stop - c.start) / c.dt⌋.toNat + 1) := by
    rw [clk_exact hr]; have := hb.2; linarith
  refine ⟨ls, lm, h1, h2, ?_, ?_⟩
  · obtain ⟨s2, g2, g3⟩ := Out.then_ok h
    obtain ⟨s1, g1, g2⟩ := Out.then_ok g2
    obtain ⟨hs1, -⟩ := initSeries_ok g1
    obtain ⟨-, -, e3, e4, -, e6⟩ := spinup_ok g2
    have := (mainLoop_rows hle hM fuel 0 (s := saveInitial c s2) (e6 (by rw [hs1]; exact hd))
      (by simp [saveInitial, e3, hs1, hc]) (Nat.zero_le _) g3).2.1
    omega
  · have key : ∀ (i : ℕ) evs, Coherent (seriesValue c.start s.series i) evs → ∀ u v x, ReadFromSeries evs u v x →
        ∃ r, attached s.series u v = some r ∧ DatedAt r (c.start + i * c.dt) x := by
      intro i evs hco u v x ⟨pre, post, he, hw⟩
      have hx := hco pre post u v x he
      rw [hw, Option.none_or] at hx
      unfold seriesValue at hx
      cases hat : attached s.series u v with
      | none => rw [hat] at hx; simp at hx
      | some r =>
        rw [hat, Option.bind_some] at hx
        refine ⟨r, rfl, _, hx.symm, ?_⟩
        obtain ⟨t, ht, e, hme, rfl, -⟩ := attached_mem hat
        have := cursor_aligned (ha u v _ hat) (hset t ht e hme)
        rw [Nat.cast_add, add_mul, ← add_assoc, this, (ha u v _ hat).step]
    intro i evs hi u v x hx
    rcases hi with hi | hi
    · have := h4 i evs hi; rw [zero_add, baseRead_seriesValue] at this; exact key i evs this u v x hx
    · have := h5 i evs hi; rw [zero_add, baseRead_seriesValue] at this; exact key i evs this u v x hx

/-! ## C41: accepted forcing covers the period -/

/-- **C41 (acceptance).** A series is accepted exactly if it is valid (it has data, every data object has values, ordered
dates and a positive step, no unit twice), its variable is not provided yet, and its declared dates span the whole
modelling period; a refused series leaves the forcing unchanged. -/
theorem c41_accepted_iff (start stop : K) (l : List (DSeries K)) (t : DSeries K) :
    ((addTimeSeries start stop l t).2 = true ↔
      (∃ e, t.data.head? = some e ∧ e.2.start ≤ start ∧ stop ≤ e.2.stop) ∧
      (∀ e ∈ t.data, e.2.values ≠ [] ∧ e.2.start ≤ e.2.stop ∧ 0 < e.2.step) ∧ (t.data.map Prod.fst).Nodup ∧
      (∀ t' ∈ l, t'.var ≠ t.var)) ∧
    ((addTimeSeries start stop l t).2 = true → (addTimeSeries start stop l t).1 = l ++ [t]) ∧
    ((addTimeSeries start stop l t).2 = false → (addTimeSeries start stop l t).1 = l) := by
  have hacc : (addTimeSeries start stop l t).2 = true ↔ checkSeries start stop l t = .accepted := by
    unfold addTimeSeries
    split <;> simp_all
  refine ⟨?_, ?_, ?_⟩
  · rw [hacc]
    unfold checkSeries
    by_cases hv : t.isValid = true
    · have hv' := hv
      unfold DSeries.isValid RegSeries.isValid at hv'
      simp only [Bool.and_eq_true, Bool.not_eq_true', List.isEmpty_eq_false_iff, List.all_eq_true,
        decide_eq_true_eq] at hv'
      obtain ⟨⟨hne, hall⟩, hnd⟩ := hv'
      obtain ⟨e, es, hes⟩ : ∃ e es, t.data = e :: es := List.exists_cons_of_ne_nil hne
      rw [if_neg (by simp [hv])]
      by_cases hdup : (l.any fun t' => t'.var == t.var) = true
      · rw [if_pos hdup]
        simp only [reduceCtorEq, false_iff, not_and]
        intro _ _ _ hc
        rw [List.any_eq_true] at hdup
        obtain ⟨t', ht', he⟩ := hdup
        exact hc t' ht' (by simpa using he)
      · rw [if_neg hdup]
        have hdup' : ∀ t' ∈ l, t'.var ≠ t.var := by
          intro t' ht' he
          exact hdup (List.any_eq_true.2 ⟨t', ht', by simpa using he⟩)
        unfold DSeries.span
        rw [hes]
        simp only [List.head?_cons, Option.map_some, Option.some.injEq, exists_eq_left']
        constructor
        · intro h
          split_ifs at h with h1 h2
          refine ⟨⟨not_lt.1 h1, not_lt.1 h2⟩, ?_, by rw [← hes]; exact hnd, hdup'⟩
          intro e' he'
          obtain ⟨⟨a, b⟩, d⟩ := hall e' (by rw [hes]; exact he')
          exact ⟨a, b, d⟩
        · rintro ⟨⟨h1, h2⟩, -⟩
          rw [if_neg (not_lt.2 h1), if_neg (not_lt.2 h2)]
    · rw [if_pos (by simpa using hv)]
      simp only [reduceCtorEq, false_iff, not_and]
      rintro ⟨e, he, -⟩ hall hnd _
      apply hv
      unfold DSeries.isValid RegSeries.isValid
      simp only [Bool.and_eq_true, Bool.not_eq_true', List.isEmpty_eq_false_iff, List.all_eq_true, decide_eq_true_eq]
      refine ⟨⟨?_, fun e he => ⟨⟨(hall e he).1, (hall e he).2.1⟩, (hall e he).2.2⟩⟩, hnd⟩
      intro hn; rw [hn] at he; simp at he
  · intro h
    have := hacc.1 h
    unfold addTimeSeries; rw [this]
  · intro h
    unfold addTimeSeries at h ⊢
    split <;> simp_all

/-- The checks of `SetValues`: the number of values fits the declared dates. -/
def SeriesFits (r : RegSeries K) : Prop := incrementDateBy r.start (r.step * ((r.values.length : ℤ) - 1)) r.unit = r.stop

theorem mapM_some {α β : Type} {f : α → Option β} : ∀ {l : List α} {d : List β}, l.mapM f = some d →
    List.Forall₂ (fun a b => f a = some b) l d := by
  intro l
  induction l with
  | nil => intro d h; simp at h; subst h; exact .nil
  | cons a l ih =>
    intro d h
    rw [List.mapM_cons] at h
    cases hf : f a with
    | none => rw [hf] at h; cases h
    | some b =>
      rw [hf] at h
      cases hl : l.mapM f with
      | none => rw [hl] at h; cases h
      | some d' =>
        rw [hl] at h
        cases h
        exact .cons hf (ih hl)

/-- Everything `TimeSeries::Create` builds fits, uses day or hour steps, and all units share the dates. -/
theorem createSeries_spec {norm : K → K} {var : VarType} {time : List K} {cols : List (ℤ × List K)} {t : DSeries K}
    (h : createSeries norm var time cols = some t) :
    t.var = var ∧ t.data.map Prod.fst = cols.map Prod.fst ∧
      ∃ a b st un, (un = TUnit.day ∨ un = TUnit.hour) ∧ ∀ e ∈ t.data, e.2.start = a ∧ e.2.stop = b ∧ e.2.step = st ∧
        e.2.unit = un ∧ SeriesFits e.2 ∧ e.2.values.length = time.length := by
  unfold createSeries at h
  split at h
  · rename_i t0 t1 rest
    simp only at h
    split at h
    · rename_i hall
      rw [Option.map_eq_some_iff] at h
      obtain ⟨d, hd, rfl⟩ := h
      replace hd := mapM_some hd
      refine ⟨rfl, ?_, norm t0, norm ((t1 :: rest).getLast (by simp)), (extractTimeStep (t1 - t0)).1,
        (extractTimeStep (t1 - t0)).2, ?_, ?_⟩
      · clear hall
        induction hd with
        | nil => rfl
        | cons h1 h2 ih =>
          rw [Option.map_eq_some_iff] at h1
          obtain ⟨r, -, rfl⟩ := h1
          simp only [List.map_cons, List.cons.injEq, true_and]
          exact ih
      · unfold extractTimeStep
        split_ifs <;> simp
      · intro e he
        obtain ⟨cc, hcc, hm⟩ : ∃ cc ∈ cols, (RegSeries.setValues ⟨norm t0, norm ((t1 :: rest).getLast (by simp)),
            (extractTimeStep (t1 - t0)).1, (extractTimeStep (t1 - t0)).2, [], 0⟩ cc.2).map (fun s => (cc.1, s)) = some e := by
          clear hall
          induction hd with
          | nil => simp at he
          | cons h1 h2 ih =>
            rcases List.mem_cons.1 he with rfl | he
            · exact ⟨_, by simp, h1⟩
            · obtain ⟨cc, hcc, hm⟩ := ih he
              exact ⟨cc, List.mem_cons_of_mem _ hcc, hm⟩
        rw [Option.map_eq_some_iff] at hm
        obtain ⟨r, hr, rfl⟩ := hm
        unfold RegSeries.setValues at hr
        split at hr
        · rename_i hfit
          cases hr
          refine ⟨rfl, rfl, rfl, rfl, hfit, ?_⟩
          have := List.all_eq_true.1 hall cc hcc
          simpa using this
        · cases hr
    · cases h
  · cases h

/-- When an accepted series cannot run out: its step is at most the model's, and its step is one time unit or the period
starts less than a day after the series. -/
structure Covers (start dt : K) (r : RegSeries K) : Prop where
  step : (r.step : K) * unitDays r.unit ≤ dt
  offset : r.step = 1 ∨ start - r.start < 1

theorem covers_range {start stop dt : K} {r : RegSeries K} (hdt : 0 < dt) (hse : start ≤ stop) (hv : 0 < r.step)
    (hne : r.values ≠ []) (hu : r.unit = .day ∨ r.unit = .hour) (hf : SeriesFits r) (h0 : r.start ≤ start) (h1 : stop ≤ r.stop)
    (hc : Covers start dt r) :
    (r.setCursor start).2 = true ∧
      (r.setCursor start).1.cursor + (⌊(stop - start) / dt⌋.toNat + 1) ≤ r.values.length := by
  have hlen : 1 ≤ r.values.length := List.length_pos_iff.2 hne
  have hst : (1 : K) ≤ r.step := by exact_mod_cast hv
  have hnl : ¬ start < r.start := not_lt.2 h0
  have hng : ¬ r.stop < start := not_lt.2 (hse.trans h1)
  obtain ⟨ok, hcur⟩ : (r.setCursor start).2 = true ∧
      (((r.setCursor start).1.cursor : ℕ) : K) * (r.step * unitDays r.unit) ≤ start - r.start := by
    unfold RegSeries.setCursor
    rw [if_neg hnl, if_neg hng]
    have hfl : ((⌊start - r.start⌋.toNat : ℕ) : K) ≤ start - r.start := by
      have : ((⌊start - r.start⌋.toNat : ℤ)) = ⌊start - r.start⌋ :=
        Int.toNat_of_nonneg (Int.floor_nonneg.2 (sub_nonneg.2 h0))
      rw [← Int.cast_natCast, this]; exact Int.floor_le _
    rcases hc.offset with hs | hs
    · rcases hu with hu | hu
      · rw [hu, hs]; simpa [unitDays] using hfl
      · rw [hu, hs]; refine ⟨rfl, ?_⟩
        simp only [unitDays]; push_cast; linarith
    · have hz : ⌊start - r.start⌋ = 0 := by
        rw [Int.floor_eq_zero_iff]; exact ⟨sub_nonneg.2 h0, hs⟩
      rcases hu with hu | hu <;> rw [hu] <;> simp [hz, h0]
  refine ⟨ok, ?_⟩
  set cur := (r.setCursor start).1.cursor with hcurd
  set sd : K := r.step * unitDays r.unit with hsd
  have hsd0 : 0 < sd := by
    rw [hsd]; rcases hu with hu | hu <;> rw [hu] <;> simp only [unitDays] <;> [skip; skip] <;> positivity
  have hend : r.start + ((r.values.length : K) - 1) * sd = r.stop := by
    have := hf
    unfold SeriesFits at this
    rw [hsd]
    rcases hu with hu | hu <;> rw [hu] at this ⊢ <;> simp only [incrementDateBy, unitDays] at this ⊢ <;>
      rw [← this] <;> push_cast <;> ring
  have hq := (floor_bounds hdt (sub_nonneg.2 hse)).1 ⌊(stop - start) / dt⌋.toNat (Nat.lt_succ_self _)
  set n := ⌊(stop - start) / dt⌋.toNat
  have h5 : (n : K) * sd ≤ stop - start := le_trans (mul_le_mul_of_nonneg_left hc.step (Nat.cast_nonneg _)) hq
  have h6 : ((cur : K) + n) * sd ≤ ((r.values.length : K) - 1) * sd := by rw [add_mul]; linarith
  have h7 := le_of_mul_le_mul_right h6 hsd0
  have h8 : ((cur + (n + 1) : ℕ) : K) ≤ (r.values.length : K) := by push_cast; linarith
  exact_mod_cast h8

theorem procStep_inrange {c : RunCfg K W A P R} {l0 : List (DSeries K)} {N i : ℕ} {s : RunSt K W A P R}
    (hr : ∀ t ∈ l0, ∀ e ∈ t.data, e.2.cursor + N ≤ e.2.values.length) (hi : i < N) (hs : s.series = shiftAll i l0)
    (hp : ∀ w, (c.proc w).ReadsOnly fun u v => (attached l0 u v).isSome) : procStep c s ≠ .ubRead := by
  intro h
  unfold procStep at h
  have := exec_total (base := baseRead s.series) (S := fun u v => (attached l0 u v).isSome) ?_ s.over (hp s.world)
  · split at h
    · rename_i he; rw [he] at this; cases this
    · split at h <;> cases h
  · intro u v hu
    obtain ⟨r, hr'⟩ := Option.isSome_iff_exists.1 hu
    rw [hs, baseRead_shift, hr', Option.bind_some]
    obtain ⟨t, ht, e, he, rfl, -⟩ := attached_mem hr'
    have := hr t ht e he
    rw [List.getElem?_eq_getElem (by omega)]; rfl

theorem advance_inrange {l0 : List (DSeries K)} {N i : ℕ} {l : List (DSeries K)}
    (hr : ∀ t ∈ l0, ∀ e ∈ t.data, e.2.cursor + N ≤ e.2.values.length) (hi : i < N) (hs : l = shiftAll i l0) :
    (untilFalse (fun t : DSeries K => t.advance) l).2 = true := by
  apply advAll_ok
  intro t ht e he
  rw [hs, shiftAll, List.mem_map] at ht
  obtain ⟨t0, ht0, rfl⟩ := ht
  unfold DSeries.shift at he
  simp only [List.mem_map] at he
  obtain ⟨e0, he0, rfl⟩ := he
  have := hr t0 ht0 e0 he0
  simp only [RegSeries.shift]
  omega

theorem updateForcing_eq {s : RunSt K W A P R} (h : (untilFalse (fun t : DSeries K => t.advance) s.series).2 = true) :
    updateForcing s = .ok { s with series := (untilFalse (fun t : DSeries K => t.advance) s.series).1,
                                   over := fun _ _ => none } := by
  unfold updateForcing
  simp only
  rw [if_pos h]

/-- The outcome is not one of those C41 excludes. -/
def Out.NoForcingTrouble {S : Type} (x : Out S) : Prop :=
  x ≠ .ubRead ∧ (∀ s, x ≠ .fail .badCursor s) ∧ ∀ s, x ≠ .fail .seriesEnded s

theorem spinStep_safe {c : RunCfg K W A P R} {l0 : List (DSeries K)} {N i : ℕ} {s : RunSt K W A P R}
    (hr : ∀ t ∈ l0, ∀ e ∈ t.data, e.2.cursor + N ≤ e.2.values.length) (hi : i < N) (hs : s.series = shiftAll i l0)
    (hp : ∀ w, (c.proc w).ReadsOnly fun u v => (attached l0 u v).isSome) : (spinStep c s).NoForcingTrouble := by
  have hproc := procStep_inrange hr hi hs hp
  have hpf : ∀ w t, procStep c s = .fail w t → w = .stepFailed := by
    intro w t h
    unfold procStep at h
    split at h
    · cases h
    · split at h <;> cases h; rfl
  have huf : ∀ s1, procStep c s = .ok s1 → ∀ w t, updateForcing (incrementTimeDetached c s1) ≠ .fail w t := by
    intro s1 h1 w t
    obtain ⟨w', o, evs, -, rfl⟩ := procStep_ok h1
    rw [updateForcing_eq (by exact advance_inrange hr hi hs)]
    simp
  refine ⟨?_, ?_, ?_⟩
  · intro h
    rcases Out.then_ubRead h with h | ⟨s1, _, h⟩
    · exact hproc h
    · exact (updateForcing_ne _).2.1 h
  · intro t h
    rcases Out.then_fail h with h | ⟨s1, h1, h⟩
    · cases hpf _ _ h
    · exact huf s1 h1 _ _ h
  · intro t h
    rcases Out.then_fail h with h | ⟨s1, h1, h⟩
    · cases hpf _ _ h
    · exact huf s1 h1 _ _ h

theorem mainStep_safe {c : RunCfg K W A P R} {l0 : List (DSeries K)} {N i : ℕ} {s : RunSt K W A P R}
    (hr : ∀ t ∈ l0, ∀ e ∈ t.data, e.2.cursor + N ≤ e.2.values.length) (hi : i < N) (hs : s.series = shiftAll i l0)
    (hp : ∀ w, (c.proc w).ReadsOnly fun u v => (attached l0 u v).isSome) : (mainStep c s).NoForcingTrouble := by
  have hproc := procStep_inrange hr hi hs hp
  have hpf : ∀ w t, (procStep c s).then (recordRow c) = .fail w t → w = .stepFailed := by
    intro w t h
    rcases Out.then_fail h with h | ⟨s1, h1, h⟩
    · unfold procStep at h
      split at h
      · cases h
      · split at h <;> cases h; rfl
    · unfold recordRow at h
      split at h <;> cases h
  have huf : ∀ s1, (procStep c s).then (recordRow c) = .ok s1 → ∀ w t,
      updateForcing { incrementTime c s1 with cursor := s1.cursor + 1 } ≠ .fail w t := by
    intro s2 h2 w t
    obtain ⟨s1, h1, h2⟩ := Out.then_ok h2
    obtain ⟨w', o, evs, -, rfl⟩ := procStep_ok h1
    obtain ⟨-, rfl⟩ := recordRow_ok h2
    rw [updateForcing_eq (by exact advance_inrange hr hi hs)]
    simp
  refine ⟨?_, ?_, ?_⟩
  · intro h
    rcases Out.then_ubRead h with h | ⟨s1, _, h⟩
    · rcases Out.then_ubRead h with h | ⟨s1, _, h⟩
      · exact hproc h
      · unfold recordRow at h
        split at h <;> cases h
    · exact (updateForcing_ne _).2.1 h
  · intro t h
    rcases Out.then_fail h with h | ⟨s1, h1, h⟩
    · cases hpf _ _ h
    · exact huf s1 h1 _ _ h
  · intro t h
    rcases Out.then_fail h with h | ⟨s1, h1, h⟩
    · cases hpf _ _ h
    · exact huf s1 h1 _ _ h

theorem NoForcingTrouble.then {S : Type} {x : Out S} {f : S → Out S} (hx : x.NoForcingTrouble)
    (hf : ∀ s, x = .ok s → (f s).NoForcingTrouble) : (x.then f).NoForcingTrouble := by
  refine ⟨?_, ?_, ?_⟩
  · intro h
    rcases Out.then_ubRead h with h | ⟨s1, h1, h⟩
    · exact hx.1 h
    · exact (hf s1 h1).1 h
  · intro t h
    rcases Out.then_fail h with h | ⟨s1, h1, h⟩
    · exact hx.2.1 _ h
    · exact (hf s1 h1).2.1 _ h
  · intro t h
    rcases Out.then_fail h with h | ⟨s1, h1, h⟩
    · exact hx.2.2 _ h
    · exact (hf s1 h1).2.2 _ h

theorem noTrouble_ok {S : Type} (s : S) : (Out.ok s).NoForcingTrouble := by
  refine ⟨?_, ?_, ?_⟩ <;> simp

theorem spinLoop_safe {c : RunCfg K W A P R} {l0 : List (DSeries K)} {N : ℕ}
    (hr : ∀ t ∈ l0, ∀ e ∈ t.data, e.2.cursor + N ≤ e.2.values.length)
    (hp : ∀ w, (c.proc w).ReadsOnly fun u v => (attached l0 u v).isSome) : ∀ (n i : ℕ) {s : RunSt K W A P R},
    i + n ≤ N → s.series = shiftAll i l0 → (spinLoop c n s).NoForcingTrouble := by
  intro n
  induction n with
  | zero => intro i s _ _; exact noTrouble_ok s
  | succ n ih =>
    intro i s hi hs
    refine NoForcingTrouble.then (spinStep_safe hr (by omega) hs hp) ?_
    intro s1 h1
    obtain ⟨w, o, evs, -, hb, rfl⟩ := spinStep_ok h1
    exact ih (i + 1) (by omega) (by simp only; rw [(advAll_true hb).1, hs, shiftAll_shiftAll])

theorem mainLoop_safe {c : RunCfg K W A P R} {l0 : List (DSeries K)} {M : ℕ} (hM : c.stop < clk c M)
    (hr : ∀ t ∈ l0, ∀ e ∈ t.data, e.2.cursor + M ≤ e.2.values.length)
    (hp : ∀ w, (c.proc w).ReadsOnly fun u v => (attached l0 u v).isSome) : ∀ (n i : ℕ) {s : RunSt K W A P R},
    i ≤ M → s.date = clk c i → s.series = shiftAll i l0 → (mainLoop c n s).NoForcingTrouble := by
  intro n
  induction n with
  | zero => intro i s _ _ _; refine ⟨?_, ?_, ?_⟩ <;> simp [mainLoop]
  | succ n ih =>
    intro i s hi hd hs
    unfold mainLoop
    split
    · exact noTrouble_ok s
    · rename_i hno
      have hiM : i < M := by
        rcases lt_or_eq_of_le hi with h1 | h1
        · exact h1
        · subst h1; rw [hd] at hno; exact absurd hM hno
      refine NoForcingTrouble.then (mainStep_safe hr hiM hs hp) ?_
      intro s1 h1
      obtain ⟨w, o, evs, -, -, hb, e1, -, -, e4, -⟩ := mainStep_ok h1
      exact ih (i + 1) hiM (by rw [e1, hd]; rfl) (by rw [e4, (advAll_true hb).1, hs, shiftAll_shiftAll])

theorem initSeries_eq {s : RunSt K W A P R} (h : ∀ t ∈ s.series, ∀ e ∈ t.data, (e.2.setCursor s.date).2 = true) :
    initSeries s = .ok { s with series := atAll s.date s.series } := by
  unfold initSeries
  simp only
  rw [if_pos (initAll_ok h), (initAll_true (initAll_ok h)).1]

/-- **C41 (no read out of range).** In exact arithmetic, for every model reading only forcings that were attached: if every
series was built by the series constructor, was accepted for the period, has a step not longer than the model's and
either a step of one time unit or a start less than a day before the period's, then neither the run nor its spin-up (at
most as long as the period) ever reads outside a series or stops because a series ended.  Missing for the full property:
accepted series with a longer step or with both a multiple step and an earlier start, see `c41_long_step_out_of_range`
and `c41_three_hourly_out_of_range`. -/
theorem c41_never_out_of_range_partial (c : RunCfg K W A P R) (hr : ∀ x, c.rnd x = x) (hdt : 0 < c.dt)
    (hse : c.start ≤ c.stop) (hspin : c.spin ≤ stepCount c.rnd c.start c.stop c.dt) (fuel : ℕ) (s : RunSt K W A P R)
    (hd : s.date = c.start)
    (hbuilt : ∀ t ∈ s.series, ∃ norm var time cols, createSeries norm var time cols = some t)
    (hacc : ∀ t ∈ s.series, ∃ l, (addTimeSeries c.start c.stop l t).2 = true)
    (hcov : ∀ t ∈ s.series, ∀ e ∈ t.data, Covers c.start c.dt e.2)
    (hp : ∀ w, (c.proc w).ReadsOnly fun u v => (attached s.series u v).isSome) :
    (run c fuel s).NoForcingTrouble := by
  set M := ⌊(c.stop - c.start) / c.dt⌋.toNat + 1 with hMdef
  have hb := floor_bounds hdt (sub_nonneg.2 hse)
  have hM : c.stop < clk c M := by rw [clk_exact hr]; have := hb.2; linarith
  have hcount : stepCount c.rnd c.start c.stop c.dt = M := by
    unfold stepCount
    rw [hr, hr, hr, add_comm, Int.floor_add_one]
    have : 0 ≤ ⌊(c.stop - c.start) / c.dt⌋ := Int.floor_nonneg.2 (div_nonneg (sub_nonneg.2 hse) hdt.le)
    omega
  have hdata : ∀ t ∈ s.series, ∀ e ∈ t.data, (e.2.setCursor c.start).2 = true ∧
      (e.2.setCursor c.start).1.cursor + M ≤ e.2.values.length := by
    intro t ht e he
    obtain ⟨norm, var, time, cols, hcr⟩ := hbuilt t ht
    obtain ⟨-, -, a, b, st, un, hun, hall⟩ := createSeries_spec hcr
    obtain ⟨l, hl⟩ := hacc t ht
    obtain ⟨⟨e0, he0, hs0, hs1⟩, hval, -, -⟩ := (c41_accepted_iff c.start c.stop l t).1.1 hl
    obtain ⟨a1, a2, a3, a4, a5, a6⟩ := hall e he
    obtain ⟨b1, b2, -⟩ := hall e0 (List.mem_of_mem_head? he0)
    obtain ⟨v1, v2, v3⟩ := hval e he
    exact covers_range hdt hse v3 v1 (by rw [a4]; exact hun) a5 (by rw [a1, ← b1]; exact hs0)
      (by rw [a2, ← b2]; exact hs1) (hcov t ht e he)
  have hset : ∀ t ∈ s.series, ∀ e ∈ t.data, (e.2.setCursor c.start).2 = true := fun t ht e he => (hdata t ht e he).1
  have hrange : ∀ t ∈ atAll c.start s.series, ∀ e ∈ t.data, e.2.cursor + M ≤ e.2.values.length := by
    intro t ht e he
    rw [atAll, List.mem_map] at ht
    obtain ⟨t0, ht0, rfl⟩ := ht
    simp only [DSeries.at, List.mem_map] at he
    obtain ⟨e0, he0, rfl⟩ := he
    simp only
    rw [(RegSeries.at_fields c.start e0.2).1]
    exact (hdata t0 ht0 e0 he0).2
  have hp' : ∀ w, (c.proc w).ReadsOnly fun u v => (attached (atAll c.start s.series) u v).isSome := by
    intro w
    have : (fun u v => (attached (atAll c.start s.series) u v).isSome = true) =
        fun u v => (attached s.series u v).isSome = true := by
      funext u v; rw [attached_at, Option.isSome_map]
    rw [this]; exact hp w
  have hinit : initSeries s = .ok { s with series := atAll c.start s.series } := by
    have := initSeries_eq (s := s) (by rw [hd]; exact hset)
    rw [this, hd]
  have hspinok : (spinup c { s with series := atAll c.start s.series }).NoForcingTrouble := by
    unfold spinup
    split
    · refine NoForcingTrouble.then (spinLoop_safe hrange hp' c.spin 0 (by omega) (by rw [shiftAll_zero])) ?_
      intro s1 h1
      have hinv : ∃ k, s1.series = shiftAll k (atAll c.start s.series) := by
        have key : ∀ (n i : ℕ) {s s' : RunSt K W A P R} {l0 : List (DSeries K)}, s.series = shiftAll i l0 →
            spinLoop c n s = .ok s' → ∃ k, s'.series = shiftAll k l0 := by
          intro n
          induction n with
          | zero => intro i s s' l0 hs h; cases h; exact ⟨i, hs⟩
          | succ n ih =>
            intro i s s' l0 hs h
            obtain ⟨s1, h1, h2⟩ := Out.then_ok h
            obtain ⟨w, o, evs, -, hb, rfl⟩ := spinStep_ok h1
            exact ih (i + 1) (by simp only; rw [(advAll_true hb).1, hs, shiftAll_shiftAll]) h2
        exact key _ 0 (by rw [shiftAll_zero]) h1
      obtain ⟨k, hk⟩ := hinv
      unfold rewind
      rw [initSeries_eq]
      · exact noTrouble_ok _
      · simp only
        rw [hk]
        intro t ht e he
        rw [shiftAll, List.mem_map] at ht
        obtain ⟨t0, ht0, rfl⟩ := ht
        rw [atAll, List.mem_map] at ht0
        obtain ⟨t1, ht1, rfl⟩ := ht0
        simp only [DSeries.shift, DSeries.at, List.mem_map, List.map_map] at he
        obtain ⟨e1, he1, rfl⟩ := he
        simp only [Function.comp]
        obtain ⟨g1, g2, g3, g4, g5⟩ := RegSeries.at_fields c.start e1.2
        have : (e1.2.at c.start).shift k = { e1.2 with cursor := (e1.2.at c.start).cursor + k } := by
          unfold RegSeries.shift; rw [g1, g2, g3, g4, g5]
        rw [this]
        exact (RegSeries.at_cursor c.start e1.2 _ (hset t1 ht1 e1 he1)).2
    · exact noTrouble_ok _
  unfold run
  refine NoForcingTrouble.then (NoForcingTrouble.then (by rw [hinit]; exact noTrouble_ok _) ?_) ?_
  · intro s1 h1
    rw [hinit] at h1
    cases h1
    exact hspinok
  · intro s2 h2
    obtain ⟨s1, h1, h2⟩ := Out.then_ok h2
    rw [hinit] at h1
    cases h1
    have hser : s2.series = atAll c.start s.series := by
      unfold spinup at h2
      split at h2
      · obtain ⟨s3, h3, h4⟩ := Out.then_ok h2
        unfold rewind at h4
        obtain ⟨rfl, hb⟩ := initSeries_ok h4
        have key : ∀ (n i : ℕ) {s s' : RunSt K W A P R} {l0 : List (DSeries K)}, s.series = shiftAll i l0 →
            spinLoop c n s = .ok s' → ∃ k, s'.series = shiftAll k l0 := by
          intro n
          induction n with
          | zero => intro i s s' l0 hs h; cases h; exact ⟨i, hs⟩
          | succ n ih =>
            intro i s s' l0 hs h
            obtain ⟨s1, h1, h2⟩ := Out.then_ok h
            obtain ⟨w, o, evs, -, hb, rfl⟩ := spinStep_ok h1
            exact ih (i + 1) (by simp only; rw [(advAll_true hb).1, hs, shiftAll_shiftAll]) h2
        obtain ⟨k, hk⟩ := key _ 0 (by rw [shiftAll_zero]) h3
        simp only
        rw [(initAll_true hb).1, hk, atAll_shiftAll_atAll hset]
      · cases h2; rfl
    have hdate : s2.date = c.start := (spinup_ok h2).2.2.2.2.2 hd
    exact mainLoop_safe hM hrange hp' fuel 0 (s := saveInitial c s2) (Nat.zero_le _) hdate
      (by rw [shiftAll_zero]; exact hser)

end

end HB
