import Verif.Model.SeriesLemmas

/-! # What a run reads from its forcing (lemmas) -/

set_option linter.unusedSectionVars false

namespace HB

section
variable {K W A P R : Type} [Field K] [LinearOrder K] [IsStrictOrderedRing K] [FloorRing K]

/-- Accesses of consecutive steps, the first of which is at position `i` of the series `l0`. -/
def CoherentFrom (l0 : List (DSeries K)) (i : ℕ) (l : List (List (FEv K))) : Prop :=
  ∀ j evs, l[j]? = some evs → Coherent (baseRead (shiftAll (i + j) l0)) evs

theorem CoherentFrom.cons {l0 : List (DSeries K)} {i : ℕ} {e : List (FEv K)} {l : List (List (FEv K))}
    (h : Coherent (baseRead (shiftAll i l0)) e) (hl : CoherentFrom l0 (i + 1) l) : CoherentFrom l0 i (e :: l) := by
  intro j evs hj
  cases j with
  | zero => simp at hj; subst hj; simpa using h
  | succ j =>
    have := hl j evs (by simpa using hj)
    rwa [show i + 1 + j = i + (j + 1) by ring] at this

theorem mainLoop_reads {c : RunCfg K W A P R} {l0 : List (DSeries K)} : ∀ (n i : ℕ) {s s' : RunSt K W A P R},
    s.series = shiftAll i l0 → s.over = (fun _ _ => none) → mainLoop c n s = .ok s' →
    ∃ l, s'.reads = s.reads ++ l ∧ s'.cursor = s.cursor + l.length ∧ CoherentFrom l0 i l ∧
      s'.series = shiftAll (i + l.length) l0 ∧ s'.over = (fun _ _ => none) := by
  intro n
  induction n with
  | zero => intro i s s' _ _ h; cases h
  | succ n ih =>
    intro i s s' hs ho h
    unfold mainLoop at h
    split at h
    · cases h
      exact ⟨[], by simp, by simp, by intro j evs hj; simp at hj, by simpa using hs, ho⟩
    · obtain ⟨s1, h1, h2⟩ := Out.then_ok h
      obtain ⟨w, o, evs, he, -, hb, -, e2, -, e4, e5, e6, -⟩ := mainStep_ok h1
      obtain ⟨l, r1, r2, r3, r4, r5⟩ := ih (i + 1) (s := s1) (s' := s')
        (by rw [e4, (advAll_true hb).1, hs, shiftAll_shiftAll]) e5 h2
      refine ⟨evs :: l, by rw [r1, e6]; simp, by rw [r2, e2]; simp; omega, ?_, ?_, r5⟩
      · refine CoherentFrom.cons ?_ r3
        rw [ho, hs] at he
        exact exec_coherent he
      · rw [r4, List.length_cons]; congr 1; omega

theorem spinLoop_reads {c : RunCfg K W A P R} {l0 : List (DSeries K)} : ∀ (n i : ℕ) {s s' : RunSt K W A P R},
    s.series = shiftAll i l0 → s.over = (fun _ _ => none) → spinLoop c n s = .ok s' →
    ∃ l, s'.reads = s.reads ++ l ∧ l.length = n ∧ CoherentFrom l0 i l ∧ s'.series = shiftAll (i + n) l0 ∧
      s'.over = (fun _ _ => none) := by
  intro n
  induction n with
  | zero =>
    intro i s s' hs ho h
    cases h
    exact ⟨[], by simp, by simp, by intro j evs hj; simp at hj, by simpa using hs, ho⟩
  | succ n ih =>
    intro i s s' hs ho h
    obtain ⟨s1, h1, h2⟩ := Out.then_ok h
    obtain ⟨w, o, evs, he, hb, rfl⟩ := spinStep_ok h1
    obtain ⟨l, r1, r2, r3, r4, r5⟩ := ih (i + 1) (by simp only; rw [(advAll_true hb).1, hs, shiftAll_shiftAll]) rfl h2
    refine ⟨evs :: l, by rw [r1]; simp, by simp [r2], ?_, by rw [r4]; congr 1; omega, r5⟩
    refine CoherentFrom.cons ?_ r3
    rw [ho, hs] at he
    exact exec_coherent he

theorem atAll_shiftAll_atAll {d : K} {l : List (DSeries K)} {n : ℕ}
    (h : ∀ t ∈ l, ∀ e ∈ t.data, (e.2.setCursor d).2 = true) : atAll d (shiftAll n (atAll d l)) = atAll d l := by
  unfold atAll shiftAll
  rw [List.map_map, List.map_map]
  apply List.map_congr_left
  intro t ht
  unfold DSeries.at DSeries.shift
  simp only [Function.comp, List.map_map]
  congr 1
  apply List.map_congr_left
  intro e he
  simp only [Function.comp, Prod.mk.injEq, true_and]
  obtain ⟨h1, h2, h3, h4, h5⟩ := RegSeries.at_fields d e.2
  have : (e.2.at d).shift n = { e.2 with cursor := (e.2.at d).cursor + n } := by
    unfold RegSeries.shift; rw [h1, h2, h3, h4, h5]
  rw [this, (RegSeries.at_cursor d e.2 _ (h t ht e he)).1]

/-- Series and overrides at the beginning of the main loop. -/
theorem spinup_series {c : RunCfg K W A P R} {l : List (DSeries K)} {s s' : RunSt K W A P R} (hd : s.date = c.start)
    (hl : ∀ t ∈ l, ∀ e ∈ t.data, (e.2.setCursor c.start).2 = true) (hs : s.series = atAll c.start l)
    (ho : s.over = fun _ _ => none) (h : spinup c s = .ok s') :
    s'.series = atAll c.start l ∧ s'.over = (fun _ _ => none) ∧
      ∃ ls, s'.reads = s.reads ++ ls ∧ ls.length = c.spin ∧ CoherentFrom (atAll c.start l) 0 ls := by
  unfold spinup at h
  split at h
  · obtain ⟨s1, h1, h2⟩ := Out.then_ok h
    obtain ⟨ls, r1, r2, r3, r4, r5⟩ := spinLoop_reads (l0 := atAll c.start l) c.spin 0
      (by rw [shiftAll_zero]; exact hs) ho h1
    unfold rewind at h2
    obtain ⟨rfl, hb⟩ := initSeries_ok h2
    refine ⟨?_, r5, ls, r1, r2, r3⟩
    simp only
    rw [(initAll_true hb).1, r4, atAll_shiftAll_atAll hl]
  · rename_i h0
    cases h
    exact ⟨hs, ho, [], by simp, by simp; omega, by intro j evs hj; simp at hj⟩

/-- What a complete run reads. -/
theorem run_reads {c : RunCfg K W A P R} {fuel : ℕ} {s s' : RunSt K W A P R} (hd : s.date = c.start)
    (ho : s.over = fun _ _ => none) (h : run c fuel s = .ok s') :
    (∀ t ∈ s.series, ∀ e ∈ t.data, (e.2.setCursor c.start).2 = true) ∧
    ∃ ls lm, s'.reads = s.reads ++ ls ++ lm ∧ ls.length = c.spin ∧ s'.cursor = s.cursor + lm.length ∧
      CoherentFrom (atAll c.start s.series) 0 ls ∧ CoherentFrom (atAll c.start s.series) 0 lm ∧
      s'.over = (fun _ _ => none) ∧ s'.series = shiftAll lm.length (atAll c.start s.series) := by
  obtain ⟨s2, h2, h3⟩ := Out.then_ok h
  obtain ⟨s1, h1, h2⟩ := Out.then_ok h2
  obtain ⟨hs1, hb⟩ := initSeries_ok h1
  rw [hd] at hb
  obtain ⟨hb1, hb2⟩ := initAll_true hb
  obtain ⟨e1, e2, ls, e3, e4, e5⟩ := spinup_series (l := s.series) (s := s1) (by rw [hs1]; exact hd) hb2
    (by rw [hs1]; simp only; rw [hd, hb1]) (by rw [hs1]; exact ho) h2
  obtain ⟨-, -, e6, -⟩ := spinup_ok h2
  obtain ⟨lm, r1, r2, r3, r4, r5⟩ := mainLoop_reads (l0 := atAll c.start s.series) fuel 0 (s := saveInitial c s2)
    (by rw [shiftAll_zero]; exact e1) e2 h3
  refine ⟨hb2, ls, lm, by rw [r1]; simp [saveInitial, e3, hs1], e4,
    by rw [r2]; simp [saveInitial, e6, hs1], e5, r3, r5, ?_⟩
  rw [r4]; simp

end

end HB
