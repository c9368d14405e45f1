import Verif.Model.Run

/-! # Lemmas on the run loop (no statement of interest by themselves) -/

set_option linter.unusedSectionVars false

namespace HB

section
variable {K W A P R : Type} [Field K] [LinearOrder K] [IsStrictOrderedRing K] [FloorRing K]

theorem Out.then_ok {S : Type} {x : Out S} {f : S → Out S} {s' : S} (h : x.then f = .ok s') :
    ∃ s, x = .ok s ∧ f s = .ok s' := by
  cases x <;> simp [Out.then, Out.bind] at h
  exact ⟨_, rfl, h⟩

theorem Out.ok_then {S : Type} (s : S) (f : S → Out S) : (Out.ok s).then f = f s := rfl

theorem Out.then_ubRow {S : Type} {x : Out S} {f : S → Out S} (h : x.then f = .ubRow) :
    x = .ubRow ∨ ∃ s, x = .ok s ∧ f s = .ubRow := by
  cases x <;> simp [Out.then, Out.bind] at h
  · exact .inr ⟨_, rfl, h⟩
  · exact .inl rfl

theorem Out.then_ubRead {S : Type} {x : Out S} {f : S → Out S} (h : x.then f = .ubRead) :
    x = .ubRead ∨ ∃ s, x = .ok s ∧ f s = .ubRead := by
  cases x <;> simp [Out.then, Out.bind] at h
  · exact .inr ⟨_, rfl, h⟩
  · exact .inl rfl

theorem Out.then_fuel {S : Type} {x : Out S} {f : S → Out S} (h : x.then f = .fuel) :
    x = .fuel ∨ ∃ s, x = .ok s ∧ f s = .fuel := by
  cases x <;> simp [Out.then, Out.bind] at h
  · exact .inr ⟨_, rfl, h⟩
  · exact .inl rfl

theorem Out.then_fail {S : Type} {x : Out S} {f : S → Out S} {w : Why} {t : S} (h : x.then f = .fail w t) :
    x = .fail w t ∨ ∃ s, x = .ok s ∧ f s = .fail w t := by
  cases x <;> simp [Out.then, Out.bind] at h
  · exact .inr ⟨_, rfl, h⟩
  · simp [h]

theorem initSeries_ok {s s' : RunSt K W A P R} (h : initSeries s = .ok s') :
    s' = { s with series := (untilFalse (fun t : DSeries K => t.setCursor s.date) s.series).1 } ∧
      (untilFalse (fun t : DSeries K => t.setCursor s.date) s.series).2 = true := by
  unfold initSeries at h
  simp only at h
  split at h
  · rename_i hb
    cases h
    exact ⟨rfl, hb⟩
  · cases h

theorem initSeries_ne (s : RunSt K W A P R) : initSeries s ≠ .ubRow ∧ initSeries s ≠ .ubRead ∧ initSeries s ≠ .fuel := by
  unfold initSeries
  simp only
  split <;> simp

theorem procStep_ok {c : RunCfg K W A P R} {s s' : RunSt K W A P R} (h : procStep c s = .ok s') :
    ∃ w o evs, (c.proc s.world).exec (baseRead s.series) s.over = some ((true, w), o, evs) ∧
      s' = { s with world := w, over := o, reads := s.reads ++ [evs] } := by
  unfold procStep at h
  split at h
  · cases h
  · rename_i r o evs he
    split at h
    · rename_i hr
      cases h
      obtain ⟨b, w⟩ := r
      simp only at hr
      subst hr
      exact ⟨w, o, evs, he, rfl⟩
    · cases h

theorem procStep_ne (c : RunCfg K W A P R) (s : RunSt K W A P R) : procStep c s ≠ .ubRow ∧ procStep c s ≠ .fuel := by
  unfold procStep
  split
  · simp
  · split <;> simp

theorem recordRow_ok {c : RunCfg K W A P R} {s s' : RunSt K W A P R} (h : recordRow c s = .ok s') :
    s.cursor < c.rows ∧ s' = { s with rowsOut := s.rowsOut ++ [(s.cursor, s.date, c.record s.world)] } := by
  unfold recordRow at h
  split at h
  · rename_i hc
    cases h
    exact ⟨hc, rfl⟩
  · cases h

theorem updateForcing_ok {s s' : RunSt K W A P R} (h : updateForcing s = .ok s') :
    s' = { s with series := (untilFalse (fun t : DSeries K => t.advance) s.series).1, over := fun _ _ => none } ∧
      (untilFalse (fun t : DSeries K => t.advance) s.series).2 = true := by
  unfold updateForcing at h
  simp only at h
  split at h
  · rename_i hb
    cases h
    exact ⟨rfl, hb⟩
  · cases h

theorem updateForcing_ne (s : RunSt K W A P R) :
    updateForcing s ≠ .ubRow ∧ updateForcing s ≠ .ubRead ∧ updateForcing s ≠ .fuel := by
  unfold updateForcing
  simp only
  split <;> simp

/-- A successful step of the main loop, spelled out. -/
theorem mainStep_ok {c : RunCfg K W A P R} {s s' : RunSt K W A P R} (h : mainStep c s = .ok s') :
    ∃ w o evs, (c.proc s.world).exec (baseRead s.series) s.over = some ((true, w), o, evs) ∧ s.cursor < c.rows ∧
      (untilFalse (fun t : DSeries K => t.advance) s.series).2 = true ∧
      s'.date = c.rnd (s.date + c.dt) ∧ s'.cursor = s.cursor + 1 ∧
      s'.rowsOut = s.rowsOut ++ [(s.cursor, s.date, c.record w)] ∧
      s'.series = (untilFalse (fun t : DSeries K => t.advance) s.series).1 ∧ s'.over = (fun _ _ => none) ∧
      s'.reads = s.reads ++ [evs] ∧ s'.initial = s.initial ∧
      s'.pars = (c.par (c.rnd (s.date + c.dt)) s.pars w).1 ∧
      s'.acts = (c.act (c.rnd (s.date + c.dt)) s.acts (c.par (c.rnd (s.date + c.dt)) s.pars w).2).1 ∧
      s'.world = (c.act (c.rnd (s.date + c.dt)) s.acts (c.par (c.rnd (s.date + c.dt)) s.pars w).2).2 := by
  unfold mainStep at h
  obtain ⟨s2, h2, h3⟩ := Out.then_ok h
  obtain ⟨s1, h1, h2⟩ := Out.then_ok h2
  obtain ⟨w, o, evs, he, rfl⟩ := procStep_ok h1
  obtain ⟨hc, rfl⟩ := recordRow_ok h2
  obtain ⟨rfl, hb⟩ := updateForcing_ok h3
  exact ⟨w, o, evs, he, hc, hb, rfl, rfl, rfl, rfl, rfl, rfl, rfl, rfl, rfl, rfl⟩

theorem mainStep_ne_fuel (c : RunCfg K W A P R) (s : RunSt K W A P R) : mainStep c s ≠ .fuel := by
  intro h
  unfold mainStep at h
  rcases Out.then_fuel h with h | ⟨s2, _, h⟩
  · rcases Out.then_fuel h with h | ⟨s1, _, h⟩
    · exact (procStep_ne c s).2 h
    · unfold recordRow at h
      split at h <;> cases h
  · exact (updateForcing_ne _).2.2 h

theorem mainStep_ubRow {c : RunCfg K W A P R} {s : RunSt K W A P R} (h : mainStep c s = .ubRow) : c.rows ≤ s.cursor := by
  unfold mainStep at h
  rcases Out.then_ubRow h with h | ⟨s2, _, h⟩
  · rcases Out.then_ubRow h with h | ⟨s1, h1, h⟩
    · exact absurd h (procStep_ne c s).1
    · obtain ⟨w, o, evs, he, rfl⟩ := procStep_ok h1
      unfold recordRow at h
      split at h
      · cases h
      · rename_i hc; simpa using hc
  · exact absurd h (updateForcing_ne _).1

theorem spinStep_ok {c : RunCfg K W A P R} {s s' : RunSt K W A P R} (h : spinStep c s = .ok s') :
    ∃ w o evs, (c.proc s.world).exec (baseRead s.series) s.over = some ((true, w), o, evs) ∧
      (untilFalse (fun t : DSeries K => t.advance) s.series).2 = true ∧
      s' = { s with date := c.rnd (s.date + c.dt), world := w, over := (fun _ _ => none), reads := s.reads ++ [evs],
                    series := (untilFalse (fun t : DSeries K => t.advance) s.series).1 } := by
  unfold spinStep at h
  obtain ⟨s1, h1, h3⟩ := Out.then_ok h
  obtain ⟨w, o, evs, he, rfl⟩ := procStep_ok h1
  obtain ⟨rfl, hb⟩ := updateForcing_ok h3
  exact ⟨w, o, evs, he, hb, rfl⟩

theorem spinStep_ne (c : RunCfg K W A P R) (s : RunSt K W A P R) : spinStep c s ≠ .fuel ∧ spinStep c s ≠ .ubRow := by
  constructor
  · intro h
    rcases Out.then_fuel h with h | ⟨s1, _, h⟩
    · exact (procStep_ne c s).2 h
    · exact (updateForcing_ne _).2.2 h
  · intro h
    rcases Out.then_ubRow h with h | ⟨s1, _, h⟩
    · exact (procStep_ne c s).1 h
    · exact (updateForcing_ne _).1 h

theorem spinLoop_ok {c : RunCfg K W A P R} : ∀ (n : ℕ) {s s' : RunSt K W A P R}, spinLoop c n s = .ok s' →
    s'.acts = s.acts ∧ s'.pars = s.pars ∧ s'.cursor = s.cursor ∧ s'.rowsOut = s.rowsOut ∧ s'.initial = s.initial := by
  intro n
  induction n with
  | zero => intro s s' h; cases h; simp
  | succ n ih =>
    intro s s' h
    obtain ⟨s1, h1, h2⟩ := Out.then_ok h
    obtain ⟨w, o, evs, -, -, rfl⟩ := spinStep_ok h1
    have := ih h2
    exact this

theorem spinLoop_ne {c : RunCfg K W A P R} : ∀ (n : ℕ) (s : RunSt K W A P R),
    spinLoop c n s ≠ .fuel ∧ spinLoop c n s ≠ .ubRow := by
  intro n
  induction n with
  | zero => intro s; simp [spinLoop]
  | succ n ih =>
    intro s
    constructor
    · intro h
      rcases Out.then_fuel h with h | ⟨s1, _, h⟩
      · exact (spinStep_ne c s).1 h
      · exact (ih s1).1 h
    · intro h
      rcases Out.then_ubRow h with h | ⟨s1, _, h⟩
      · exact (spinStep_ne c s).2 h
      · exact (ih s1).2 h

theorem spinup_ne {c : RunCfg K W A P R} (s : RunSt K W A P R) : spinup c s ≠ .fuel ∧ spinup c s ≠ .ubRow := by
  unfold spinup
  split
  · constructor
    · intro h
      rcases Out.then_fuel h with h | ⟨s1, _, h⟩
      · exact (spinLoop_ne _ _).1 h
      · exact (initSeries_ne _).2.2 h
    · intro h
      rcases Out.then_ubRow h with h | ⟨s1, _, h⟩
      · exact (spinLoop_ne _ _).2 h
      · exact (initSeries_ne _).1 h
  · simp

/-- Model date after `i` increments from the start. -/
def clk (c : RunCfg K W A P R) : ℕ → K
  | 0 => c.start
  | i + 1 => c.rnd (clk c i + c.dt)

/-- What the main loop writes, for any rounding: `M` is the first index whose date lies after the end. -/
theorem mainLoop_rows {c : RunCfg K W A P R} {M : ℕ} (hle : ∀ j, j < M → clk c j ≤ c.stop) (hM : c.stop < clk c M) :
    ∀ (n i : ℕ) {s s' : RunSt K W A P R}, s.date = clk c i → s.cursor = i → i ≤ M → mainLoop c n s = .ok s' →
      (∃ l, s'.rowsOut = s.rowsOut ++ l ∧
        l.map (fun r => (r.1, r.2.1)) = (List.range' i (M - i)).map fun j => (j, clk c j)) ∧
      s'.cursor = M ∧ s'.date = clk c M ∧ s'.initial = s.initial := by
  intro n
  induction n with
  | zero => intro i s s' _ _ _ h; cases h
  | succ n ih =>
    intro i s s' hd hc hi h
    unfold mainLoop at h
    split at h
    · rename_i hover
      have : i = M := by
        rcases lt_or_eq_of_le hi with h1 | h1
        · exact absurd (hle i h1) (by rw [← hd]; exact not_le.2 hover)
        · exact h1
      subst this
      cases h
      refine ⟨⟨[], by simp⟩, hc, hd, rfl⟩
    · rename_i hno
      have hiM : i < M := by
        rcases lt_or_eq_of_le hi with h1 | h1
        · exact h1
        · subst h1; rw [hd] at hno; exact absurd hM hno
      obtain ⟨s1, h1, h2⟩ := Out.then_ok h
      obtain ⟨w, o, evs, -, -, -, e1, e2, e3, -, -, -, e4, -⟩ := mainStep_ok h1
      obtain ⟨⟨l, hl, hm⟩, r2, r3, r4⟩ := ih (i + 1) (by rw [e1, hd]; rfl) (by rw [e2, hc]) hiM h2
      refine ⟨⟨(s.cursor, s.date, c.record w) :: l, by rw [hl, e3]; simp, ?_⟩, r2, r3, r4.trans e4⟩
      have : M - i = (M - (i + 1)) + 1 := by omega
      rw [this, List.range'_succ, List.map_cons, List.map_cons, hm, hd, hc]

theorem mainLoop_ne_ubRow {c : RunCfg K W A P R} {M : ℕ} (hM : c.stop < clk c M) (hle : ∀ j, j < M → clk c j ≤ c.stop)
    (hr : M ≤ c.rows) : ∀ (n i : ℕ) {s : RunSt K W A P R}, s.date = clk c i → s.cursor = i → i ≤ M →
      mainLoop c n s ≠ .ubRow := by
  intro n
  induction n with
  | zero => intro i s _ _ _ h; cases h
  | succ n ih =>
    intro i s hd hc hi h
    unfold mainLoop at h
    split at h
    · cases h
    · rename_i hno
      have hiM : i < M := by
        rcases lt_or_eq_of_le hi with h1 | h1
        · exact h1
        · subst h1; rw [hd] at hno; exact absurd hM hno
      rcases Out.then_ubRow h with h | ⟨s1, h1, h⟩
      · have := mainStep_ubRow h; omega
      · obtain ⟨w, o, evs, -, -, -, e1, e2, -⟩ := mainStep_ok h1
        exact ih (i + 1) (by rw [e1, hd]; rfl) (by rw [e2, hc]) hiM h

theorem mainLoop_ne_fuel {c : RunCfg K W A P R} {M : ℕ} (hM : c.stop < clk c M) (hle : ∀ j, j < M → clk c j ≤ c.stop) :
    ∀ (n i : ℕ) {s : RunSt K W A P R}, s.date = clk c i → i ≤ M → M - i < n → mainLoop c n s ≠ .fuel := by
  intro n
  induction n with
  | zero => intro i s _ _ hn; omega
  | succ n ih =>
    intro i s hd hi hn h
    unfold mainLoop at h
    split at h
    · cases h
    · rename_i hno
      have hiM : i < M := by
        rcases lt_or_eq_of_le hi with h1 | h1
        · exact h1
        · subst h1; rw [hd] at hno; exact absurd hM hno
      rcases Out.then_fuel h with h | ⟨s1, h1, h⟩
      · exact mainStep_ne_fuel _ _ h
      · obtain ⟨w, o, evs, -, -, -, e1, e2, -⟩ := mainStep_ok h1
        exact ih (i + 1) (by rw [e1, hd]; rfl) hiM (by omega) h

/-- State at the beginning of the main loop. -/
theorem spinup_ok {c : RunCfg K W A P R} {s s' : RunSt K W A P R} (h : spinup c s = .ok s') :
    s'.acts = s.acts ∧ s'.pars = s.pars ∧ s'.cursor = s.cursor ∧ s'.rowsOut = s.rowsOut ∧ s'.initial = s.initial ∧
      (s.date = c.start → s'.date = c.start) := by
  unfold spinup at h
  split at h
  · obtain ⟨s1, h1, h2⟩ := Out.then_ok h
    obtain ⟨a, b, d, e, f⟩ := spinLoop_ok _ h1
    unfold rewind at h2
    obtain ⟨rfl, -⟩ := initSeries_ok h2
    exact ⟨a, b, d, e, f, fun _ => rfl⟩
  · cases h
    exact ⟨rfl, rfl, rfl, rfl, rfl, fun h => h⟩

end

end HB
