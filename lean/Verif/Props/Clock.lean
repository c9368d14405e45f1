import Verif.Model.RunLemmas
import Verif.Model.Double

/-!
# C39: the clock visits every time step exactly once

The theorems hold for every physical model, forcing, action and parameter behaviour (`proc`, `par`, `act`, ... are
arbitrary).
-/

set_option linter.unusedSectionVars false

namespace HB

section
variable {K W A P R : Type} [Field K] [LinearOrder K] [IsStrictOrderedRing K] [FloorRing K]

/-- Specification: the rows appended to the results are exactly `0, ..., n-1`, once each and in order, and row `i` carries
the date `date i`. -/
def RowsExactly (n : ℕ) (date : ℕ → K) (old new : List (ℕ × K × R)) : Prop :=
  ∃ l, new = old ++ l ∧ l.map (fun r => (r.1, r.2.1)) = (List.range n).map fun i => (i, date i)

/-- What C39 promises about a run from a freshly reset state. -/
structure VisitsAll (c : RunCfg K W A P R) (n : ℕ) (s : RunSt K W A P R) : Prop where
  /-- the allocated rows are as many as the steps -/
  allocated : c.rows = n
  /-- a completed run wrote each row once, with its date -/
  rows : ∀ fuel s', run c fuel s = .ok s' → RowsExactly n (fun i => c.start + i * c.dt) s.rowsOut s'.rowsOut
  /-- no run writes outside the allocated rows -/
  inside : ∀ fuel, run c fuel s ≠ .ubRow
  /-- every run ends -/
  ends : ∀ fuel, n < fuel → run c fuel s ≠ .fuel

/-- From the behaviour of the clock to that of the run. -/
theorem run_rows {c : RunCfg K W A P R} {M : ℕ} (hle : ∀ j, j < M → clk c j ≤ c.stop) (hM : c.stop < clk c M)
    {s : RunSt K W A P R} (hd : s.date = c.start) (hc : s.cursor = 0) :
    (∀ fuel s', run c fuel s = .ok s' → RowsExactly M (clk c) s.rowsOut s'.rowsOut) ∧
      (M ≤ c.rows → ∀ fuel, run c fuel s ≠ .ubRow) ∧ (∀ fuel, M < fuel → run c fuel s ≠ .fuel) := by
  refine ⟨?_, ?_, ?_⟩
  · intro fuel s' h
    obtain ⟨s2, h2, h3⟩ := Out.then_ok h
    obtain ⟨s1, h1, h2⟩ := Out.then_ok h2
    obtain ⟨rfl, -⟩ := initSeries_ok h1
    obtain ⟨-, -, e3, e4, -, e6⟩ := spinup_ok h2
    obtain ⟨⟨l, hl, hm⟩, -⟩ := mainLoop_rows hle hM fuel 0 (s := saveInitial c s2) (e6 hd) (by simp [saveInitial, e3, hc])
      (Nat.zero_le _) h3
    refine ⟨l, by rw [hl]; simp [saveInitial, e4], ?_⟩
    rw [hm, List.range_eq_range']; simp
  · intro hr fuel h
    rcases Out.then_ubRow h with h | ⟨s2, h2, h⟩
    · rcases Out.then_ubRow h with h | ⟨s1, h1, h⟩
      · exact (initSeries_ne _).1 h
      · exact (spinup_ne _).2 h
    · obtain ⟨s1, h1, h2⟩ := Out.then_ok h2
      obtain ⟨rfl, -⟩ := initSeries_ok h1
      obtain ⟨-, -, e3, e4, -, e6⟩ := spinup_ok h2
      exact mainLoop_ne_ubRow hM hle hr fuel 0 (s := saveInitial c s2) (e6 hd) (by simp [saveInitial, e3, hc])
        (Nat.zero_le _) h
  · intro fuel hf h
    rcases Out.then_fuel h with h | ⟨s2, h2, h⟩
    · rcases Out.then_fuel h with h | ⟨s1, h1, h⟩
      · exact (initSeries_ne _).2.2 h
      · exact (spinup_ne _).1 h
    · obtain ⟨s1, h1, h2⟩ := Out.then_ok h2
      obtain ⟨rfl, -⟩ := initSeries_ok h1
      obtain ⟨-, -, e3, e4, -, e6⟩ := spinup_ok h2
      exact mainLoop_ne_fuel hM hle fuel 0 (s := saveInitial c s2) (e6 hd) (Nat.zero_le _) (by omega) h

theorem clk_exact {c : RunCfg K W A P R} (hr : ∀ x, c.rnd x = x) (i : ℕ) : clk c i = c.start + i * c.dt := by
  induction i with
  | zero => simp [clk]
  | succ i ih => rw [clk, hr, ih]; push_cast; ring

theorem floor_bounds {a dt : K} (hdt : 0 < dt) (ha : 0 ≤ a) :
    (∀ j : ℕ, j < ⌊a / dt⌋.toNat + 1 → (j : K) * dt ≤ a) ∧ a < ((⌊a / dt⌋.toNat + 1 : ℕ) : K) * dt := by
  have hq : 0 ≤ a / dt := div_nonneg ha hdt.le
  have hn : ((⌊a / dt⌋.toNat : ℤ)) = ⌊a / dt⌋ := Int.toNat_of_nonneg (Int.floor_nonneg.2 hq)
  constructor
  · intro j hj
    rw [← le_div_iff₀ hdt]
    have h1 : (j : ℤ) ≤ ⌊a / dt⌋ := by rw [← hn]; exact_mod_cast Nat.lt_succ_iff.1 hj
    have := Int.le_floor.1 h1
    simpa using this
  · rw [← div_lt_iff₀ hdt]
    have := Int.lt_floor_add_one (a / dt)
    have hk : ((⌊a / dt⌋ : ℤ) : K) = ((⌊a / dt⌋.toNat : ℕ) : K) := by
      rw [← Int.cast_natCast, hn]
    rw [hk] at this
    push_cast
    exact this

/-- **C39 (exact arithmetic).** For every period, step, model, forcing, action set and spin-up: a run processes exactly
`⌊(end-start)/dt⌋ + 1` steps, at the dates `start + i·dt`, which is the number of result rows allocated; each row is
written once, none outside. -/
theorem c39_visits_all (c : RunCfg K W A P R) (hr : ∀ x, c.rnd x = x) (hdt : 0 < c.dt) (hse : c.start ≤ c.stop)
    (hrows : c.rows = stepCount c.rnd c.start c.stop c.dt) (s : RunSt K W A P R) (hd : s.date = c.start)
    (hc : s.cursor = 0) : VisitsAll c (⌊(c.stop - c.start) / c.dt⌋.toNat + 1) s := by
  have hb := floor_bounds hdt (sub_nonneg.2 hse)
  have hle : ∀ j, j < ⌊(c.stop - c.start) / c.dt⌋.toNat + 1 → clk c j ≤ c.stop := by
    intro j hj; rw [clk_exact hr]; have := hb.1 j hj; linarith
  have hM : c.stop < clk c (⌊(c.stop - c.start) / c.dt⌋.toNat + 1) := by
    rw [clk_exact hr]; have := hb.2; linarith
  have hcount : stepCount c.rnd c.start c.stop c.dt = ⌊(c.stop - c.start) / c.dt⌋.toNat + 1 := by
    unfold stepCount
    rw [hr, hr, hr, add_comm, Int.floor_add_one]
    have : 0 ≤ ⌊(c.stop - c.start) / c.dt⌋ := Int.floor_nonneg.2 (div_nonneg (sub_nonneg.2 hse) hdt.le)
    omega
  obtain ⟨h1, h2, h3⟩ := run_rows hle hM hd hc
  refine ⟨hrows.trans hcount, ?_, h2 (by rw [hrows, hcount]), h3⟩
  intro fuel s' h
  have := h1 fuel s' h
  rwa [show clk c = fun i : ℕ => c.start + i * c.dt from funext fun i => clk_exact hr i] at this

/-- What double rounding guarantees and the next theorem needs: integers below 2^53 are exact, the relative error is at
most 2^-53. -/
structure RoundsLikeDouble (rnd : K → K) : Prop where
  int : ∀ n : ℤ, |n| < 2 ^ 53 → rnd n = n
  err : ∀ x, |rnd x - x| ≤ |x| / 2 ^ 53

theorem floor_rounded {rnd : K → K} (h : RoundsLikeDouble rnd) {a b : ℤ} (hb : 0 < b) (ha : 0 ≤ a) (hA : a < 2 ^ 50)
    (hB : b < 2 ^ 50) : ⌊rnd (1 + rnd ((a : K) / b))⌋ = a / b + 1 := by
  have hbK : (0 : K) < b := by exact_mod_cast hb
  have haK : (0 : K) ≤ a := by exact_mod_cast ha
  have hAK : (a : K) < 2 ^ 50 := by exact_mod_cast hA
  have hBK : (b : K) < 2 ^ 50 := by exact_mod_cast hB
  set q := a / b with hq
  set r := a % b with hr
  have hab : a = b * q + r := by rw [hq, hr]; exact (Int.mul_ediv_add_emod a b).symm
  have hr0 : 0 ≤ r := Int.emod_nonneg _ hb.ne'
  have hrb : r < b := Int.emod_lt_of_pos _ hb
  have hq0 : 0 ≤ q := Int.ediv_nonneg ha hb.le
  have hqA : q ≤ a := Int.ediv_le_self _ ha
  by_cases hz : r = 0
  · -- exact division
    have : (a : K) / b = (q : K) := by
      rw [div_eq_iff hbK.ne', hab, hz]; push_cast; ring
    rw [this, h.int q (by rw [abs_of_nonneg hq0]; omega)]
    have h1 : (1 : K) + q = ((1 + q : ℤ) : K) := by push_cast; ring
    rw [h1, h.int (1 + q) (by rw [abs_of_nonneg (by omega)]; omega), Int.floor_intCast]
    ring
  · have hr1 : 1 ≤ r := by omega
    have hrb1 : r ≤ b - 1 := by omega
    set x : K := (a : K) / b with hx
    have hxb : x * b = a := by rw [hx]; field_simp
    have hx0 : 0 ≤ x := div_nonneg haK hbK.le
    have hlo : (q : K) * b + 1 ≤ x * b := by
      rw [hxb]; have : q * b + 1 ≤ a := by nlinarith
      exact_mod_cast this
    have hhi : x * b + 1 ≤ ((q : K) + 1) * b := by
      rw [hxb]; have : a + 1 ≤ (q + 1) * b := by nlinarith
      exact_mod_cast this
    have e1 := h.err x
    rw [abs_of_nonneg hx0] at e1
    set y := rnd x with hy
    have hy1 : y ≤ x + x / 2 ^ 53 := by have := (abs_le.1 e1).2; linarith
    have hy2 : x - x / 2 ^ 53 ≤ y := by have := (abs_le.1 e1).1; linarith
    have hy0 : 0 ≤ 1 + y := by
      have : x / 2 ^ 53 ≤ x := div_le_self hx0 (by norm_num)
      linarith
    have e2 := h.err (1 + y)
    rw [abs_of_nonneg hy0] at e2
    set z := rnd (1 + y) with hzz
    have hz1 := (abs_le.1 e2).2
    have hz2 := (abs_le.1 e2).1
    have hxA : x * b < 2 ^ 50 := by rw [hxb]; exact hAK
    -- all errors, scaled by b, are below 1
    have hyb : (1 + y) * b ≤ 2 ^ 51 + 1 := by
      have : y * b ≤ (x + x / 2 ^ 53) * b := by gcongr
      have h5 : (x + x / 2 ^ 53) * b = x * b + x * b / 2 ^ 53 := by ring
      have h6 : x * b / 2 ^ 53 ≤ 1 := by rw [div_le_one (by positivity)]; nlinarith
      nlinarith
    have hE1 : x / 2 ^ 53 * b ≤ 1 / 8 := by
      have : x / 2 ^ 53 * b = x * b / 2 ^ 53 := by ring
      rw [this, div_le_iff₀ (by positivity)]; norm_num; nlinarith
    have hE2 : (1 + y) / 2 ^ 53 * b ≤ 1 / 2 := by
      have : (1 + y) / 2 ^ 53 * b = (1 + y) * b / 2 ^ 53 := by ring
      rw [this, div_le_iff₀ (by positivity)]; norm_num; nlinarith
    rw [Int.floor_eq_iff]
    push_cast
    constructor
    · have : (0 : K) ≤ (z - (q + 1)) * b := by
        have h7 : (z - (q + 1)) * b = (z - (1 + y)) * b + (y - x) * b + (x * b - q * b) := by ring
        have h8 : -((1 + y) / 2 ^ 53) * b ≤ (z - (1 + y)) * b := by gcongr
        have h9 : -(x / 2 ^ 53) * b ≤ (y - x) * b := by
          apply mul_le_mul_of_nonneg_right _ hbK.le; linarith
        rw [h7]; linarith
      have := nonneg_of_mul_nonneg_left this hbK
      linarith
    · have : (z - (q + 1 + 1)) * b < 0 := by
        have h7 : (z - (q + 1 + 1)) * b = (z - (1 + y)) * b + (y - x) * b + (x * b - (q + 1) * b) := by ring
        have h8 : (z - (1 + y)) * b ≤ ((1 + y) / 2 ^ 53) * b := by gcongr
        have h9 : (y - x) * b ≤ (x / 2 ^ 53) * b := by
          apply mul_le_mul_of_nonneg_right _ hbK.le; linarith
        rw [h7]; linarith
      by_contra hc
      exact absurd this (not_lt.2 (mul_nonneg (by linarith) hbK.le))

/-- **C39 for whole-day steps in double arithmetic.** With any rounding that behaves like that of doubles, a period
between two midnights (day numbers below 2^50) and a step of a whole number of days: same conclusion as in exact
arithmetic.  What is missing for the full property in doubles is sub-daily steps, where it is false: see
`c39_hourly_overruns` and `c39_two_hourly_misses`. -/
theorem c39_visits_all_double_partial (c : RunCfg K W A P R) (hr : RoundsLikeDouble c.rnd) {a b d : ℤ}
    (ha : c.start = a) (hb : c.stop = b) (hd : c.dt = d) (h0 : 0 ≤ a) (hab : a ≤ b) (hB : b < 2 ^ 50) (hd0 : 0 < d)
    (hD : d < 2 ^ 50) (hrows : c.rows = stepCount c.rnd c.start c.stop c.dt) (s : RunSt K W A P R)
    (hs : s.date = c.start) (hc : s.cursor = 0) : VisitsAll c (((b - a) / d).toNat + 1) s := by
  set M := ((b - a) / d).toNat + 1 with hM
  have hq0 : 0 ≤ (b - a) / d := Int.ediv_nonneg (by omega) hd0.le
  have hMz : ((M : ℕ) : ℤ) = (b - a) / d + 1 := by rw [hM]; push_cast; rw [Int.toNat_of_nonneg hq0]
  have hlo : (b - a) / d * d ≤ b - a := Int.ediv_mul_le _ hd0.ne'
  have hhi : b - a < ((b - a) / d + 1) * d := Int.lt_ediv_add_one_mul_self _ hd0
  have hclk : ∀ i : ℕ, i ≤ M → clk c i = ((a + i * d : ℤ) : K) := by
    intro i
    induction i with
    | zero => intro _; simp [clk, ha]
    | succ i ih =>
      intro hi
      rw [clk, ih (by omega), hd]
      have e : ((a + i * d : ℤ) : K) + (d : K) = ((a + (i + 1 : ℕ) * d : ℤ) : K) := by push_cast; ring
      rw [e, hr.int]
      have h1 : ((i + 1 : ℕ) : ℤ) * d ≤ ((b - a) / d + 1) * d := by
        apply mul_le_mul_of_nonneg_right _ hd0.le; rw [← hMz]; exact_mod_cast hi
      have h2 : 0 ≤ ((i + 1 : ℕ) : ℤ) * d := by positivity
      rw [abs_of_nonneg (by linarith)]
      have : ((b - a) / d + 1) * d = (b - a) / d * d + d := by ring
      omega
  have hle : ∀ j, j < M → clk c j ≤ c.stop := by
    intro j hj
    rw [hclk j hj.le, hb]
    have h1 : (j : ℤ) * d ≤ (b - a) / d * d := by
      apply mul_le_mul_of_nonneg_right _ hd0.le; omega
    exact_mod_cast (by linarith : a + (j : ℤ) * d ≤ b)
  have hgt : c.stop < clk c M := by
    rw [hclk M le_rfl, hb]
    have : b < a + (M : ℤ) * d := by rw [hMz]; linarith
    exact_mod_cast this
  have hcount : stepCount c.rnd c.start c.stop c.dt = M := by
    unfold stepCount
    have e : c.stop - c.start = ((b - a : ℤ) : K) := by rw [ha, hb]; push_cast; ring
    rw [e, hr.int _ (by rw [abs_of_nonneg (by omega)]; omega), hd,
      floor_rounded hr hd0 (by omega) (by omega) hD]
    omega
  obtain ⟨h1, h2, h3⟩ := run_rows hle hgt hs hc
  refine ⟨hrows.trans hcount, ?_, h2 (by rw [hrows, hcount]), h3⟩
  intro fuel s' h
  obtain ⟨l, hl, hm⟩ := h1 fuel s' h
  refine ⟨l, hl, hm.trans ?_⟩
  apply List.map_congr_left
  intro i hi
  rw [hclk i (by simpa using (List.mem_range.1 hi).le), ha, hd]
  push_cast; rfl

end

/-- Doubles round as required. -/
theorem fl64_rounds : RoundsLikeDouble fl64 := ⟨fl64_int, fl64_err⟩

/-! ## Witnesses -/

/-- A run without forcing, actions or parameters, recording nothing. -/
def bareCfg (rnd : ℚ → ℚ) (start stop dt : ℚ) (rows : ℕ) : RunCfg ℚ Unit Unit Unit Unit where
  start := start
  stop := stop
  dt := dt
  rnd := rnd
  rows := rows
  spin := 0
  proc := fun w => .ret (true, w)
  par := fun _ p w => (p, w)
  act := fun _ a w => (a, w)
  restore := id
  record := id

/-- Its state after initialization. -/
def bareSt (start : ℚ) : RunSt ℚ Unit Unit Unit Unit :=
  { date := start, world := (), acts := (), pars := (), series := [], over := fun _ _ => none, cursor := 0,
    initial := none, rowsOut := [], reads := [] }

/-- Rows and dates of a completed run, for comparison. -/
def Out.rowsOf (x : Out (RunSt ℚ Unit Unit Unit Unit)) : Option (List (ℕ × ℚ)) :=
  match x with
  | .ok s => some (s.rowsOut.map fun r => (r.1, r.2.1))
  | _ => none

/-- Whether the run wrote outside the allocated rows. -/
def Out.isUbRow {S : Type} (x : Out S) : Bool :=
  match x with
  | .ubRow => true
  | _ => false

/-- Exact arithmetic: 2020-01-01 to 2020-01-03 12:00 every 6 hours, 11 steps. -/
example : VisitsAll (bareCfg id 58849 (58851 + 1 / 2) (1 / 4) 11) 11 (bareSt 58849) := by
  have h := c39_visits_all (bareCfg id 58849 (58851 + 1 / 2) (1 / 4) 11) (fun _ => rfl)
    (by norm_num [bareCfg]) (by norm_num [bareCfg]) (by decide +kernel) (bareSt 58849) rfl rfl
  have e : ⌊((bareCfg id 58849 (58851 + 1 / 2) (1 / 4) 11).stop - (bareCfg id 58849 (58851 + 1 / 2) (1 / 4) 11).start) /
    (bareCfg id 58849 (58851 + 1 / 2) (1 / 4) 11).dt⌋.toNat + 1 = 11 := by decide +kernel
  rwa [e] at h

/-- Doubles, daily step over one year. -/
example : VisitsAll (bareCfg fl64 58849 59214 1 366) 366 (bareSt 58849) :=
  c39_visits_all_double_partial (bareCfg fl64 58849 59214 1 366) fl64_rounds (a := 58849) (b := 59214) (d := 1)
    (by norm_num [bareCfg]) (by norm_num [bareCfg]) (by norm_num [bareCfg]) (by norm_num) (by norm_num) (by norm_num)
    (by norm_num) (by norm_num) (by decide +kernel) (bareSt 58849) rfl rfl

/-- Date 2020-01-01 at `h` o'clock as computed by `ToMJD` in doubles (UtilsDateTime.cpp): seconds since 1970 over 86400
plus 40587. -/
def mjdAtHour (h : ℕ) : ℚ := fl64 (40587 + fl64 ((18262 * 86400 + h * 3600) / 86400))

/-- **C39 is false for sub-daily steps in doubles (too few rows).** Hourly steps from 2020-01-01 00:00 to 02:00: two rows
are allocated, the loop processes a third step and writes outside the result arrays. -/
theorem c39_hourly_overruns :
    stepCount fl64 58849 (mjdAtHour 2) (fl64 (1 / 24)) = 2 ∧
      (run (bareCfg fl64 58849 (mjdAtHour 2) (fl64 (1 / 24)) 2) 10 (bareSt 58849)).isUbRow = true ∧
      ((run (bareCfg fl64 58849 (mjdAtHour 2) (fl64 (1 / 24)) 3) 10 (bareSt 58849)).rowsOf.map List.length) = some 3 := by
  decide +kernel

/-- **C39 is false for sub-daily steps in doubles (too few steps).** Two-hourly steps from 2020-01-01 00:00 to 06:00: four
rows are allocated, only three steps are processed and the last row stays empty. -/
theorem c39_two_hourly_misses :
    stepCount fl64 58849 (mjdAtHour 6) (fl64 (2 / 24)) = 4 ∧
      ((run (bareCfg fl64 58849 (mjdAtHour 6) (fl64 (2 / 24)) 4) 10 (bareSt 58849)).rowsOf.map List.length) = some 3 := by
  decide +kernel

/-- In exact arithmetic these two periods have three and four steps. -/
example : stepCount (fun x : ℚ => x) 58849 (58849 + 2 / 24) (1 / 24) = 3 ∧
    stepCount (fun x : ℚ => x) 58849 (58849 + 6 / 24) (2 / 24) = 4 := by decide +kernel

end HB
