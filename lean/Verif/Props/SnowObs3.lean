import Verif.Props.SnowObs2
import Mathlib.Data.Rat.Defs
import Mathlib.Algebra.Order.Field.Rat
import Mathlib.Algebra.Order.Ring.Rat

/-! # C87: files, loaders and cache; examples -/

set_option linter.unusedSectionVars false

namespace HB.SnowObs

open HB.Spec.SnowObs

variable {K : Type} [Field K] [LinearOrder K] [IsStrictOrderedRing K]

/-- In the period, bounds included; a missing bound is no bound. -/
def InPeriod (start stop : Option ℤ) (d : ℤ) : Prop := (∀ s, start = some s → s ≤ d) ∧ ∀ e, stop = some e → d ≤ e

theorem period_bool (start stop : Option ℤ) (d : ℤ) :
    (!((start.any fun s => decide (d < s)) || (stop.any fun e => decide (e < d)))) = true ↔ InPeriod start stop d := by
  unfold InPeriod
  cases start <;> cases stop <;> simp

theorem mem_restrict (start stop : Option ℤ) (l : List (Target K)) (t : Target K) : t ∈ restrict start stop l ↔ t ∈ l ∧ InPeriod start stop t.t := by
  unfold restrict
  rw [List.mem_filter, period_bool]

/-- **C87 (rows of a file)**: the targets of a file are its rows with date, unit and value, whose value is within the bounds and whose date is in the
period; the value is scaled. -/
theorem c87_rows (scale : K) (vmin vmax : Option K) (start stop : Option ℤ) (rows : List (Option ℤ × Option ℤ × Option K)) (t : Target K) :
    t ∈ fromCsv scale vmin vmax start stop rows ↔
      ∃ v, (some t.t, some t.unitId, some v) ∈ rows ∧ Good none vmin vmax v ∧ t.value = v * scale ∧ InPeriod start stop t.t := by
  unfold fromCsv
  rw [mem_restrict]
  unfold addTargets
  have hval : ∀ (raw : Option K) (w : K), csvValue scale vmin vmax raw = some w ↔ ∃ v, raw = some v ∧ Good none vmin vmax v ∧ w = v * scale := by
    intro raw w
    unfold csvValue
    rw [Option.map_eq_some_iff]
    constructor
    · rintro ⟨v, hv, rfl⟩
      obtain ⟨h1, h2⟩ := Option.filter_eq_some_iff.1 hv
      simp only [Bool.and_eq_true, Option.all_eq_true, decide_eq_true_eq] at h2
      exact ⟨v, h1, ⟨by simp, fun m hm => h2.1 m hm, fun m hm => h2.2 m hm⟩, rfl⟩
    · rintro ⟨v, rfl, ⟨_, h1, h2⟩, rfl⟩
      refine ⟨v, ?_, rfl⟩
      rw [Option.filter_eq_some_iff]
      refine ⟨rfl, ?_⟩
      simp only [Bool.and_eq_true, Option.all_eq_true, decide_eq_true_eq]
      exact ⟨fun m hm => h1 m hm, fun m hm => h2 m hm⟩
  constructor
  · rintro ⟨h, hp⟩
    obtain ⟨r, hr, he⟩ := List.mem_filterMap.1 h
    obtain ⟨⟨a, b, c⟩, h0, rfl⟩ := List.mem_map.1 hr
    simp only at he
    cases a with
    | none => cases he
    | some a =>
      cases b with
      | none => cases he
      | some b =>
        simp only [Option.bind_some, Option.map_eq_some_iff] at he
        obtain ⟨w, hw, rfl⟩ := he
        obtain ⟨v, rfl, hg, rfl⟩ := (hval c w).1 hw
        exact ⟨v, h0, hg, rfl, hp⟩
  · rintro ⟨v, h0, hg, hv, hp⟩
    refine ⟨List.mem_filterMap.2 ⟨(some t.t, some t.unitId, some t.value), List.mem_map.2 ⟨_, h0, ?_⟩, ?_⟩, hp⟩
    · simp only [Prod.mk.injEq, true_and]
      exact (hval (some v) t.value).2 ⟨v, rfl, hg, hv⟩
    · rfl

/-- **C87 (round trip)**: what `to_csv` writes, `from_csv` reads back. -/
theorem c87_csv (ts : List (Target K)) : fromCsv 1 none none none none (toCsv ts) = ts := by
  unfold fromCsv toCsv restrict addTargets
  rw [List.filter_eq_self.2 (by intro a _; rfl), List.map_map]
  induction ts with
  | nil => rfl
  | cons t r ih =>
    rw [List.map_cons, List.filterMap_cons, ih]
    simp only [Function.comp, csvValue, Option.filter, Option.all_none, Bool.and_self, if_true, Option.map_some, Option.bind_some, mul_one]

theorem mem_build (times ids : List ℤ) (m : ℕ → ℕ → Option K) (start stop : Option ℤ) (t : Target K) :
    t ∈ build times ids m start stop ↔
      ∃ i j, times[i]? = some t.t ∧ ids[j]? = some t.unitId ∧ m i j = some t.value ∧ InPeriod start stop t.t := by
  unfold build
  rw [mem_restrict, List.mem_flatMap]
  constructor
  · rintro ⟨⟨⟨d, i⟩, hd, h⟩, hp⟩
    obtain ⟨⟨u, j⟩, hu, h⟩ := List.mem_filterMap.1 h
    obtain ⟨v, hv, rfl⟩ := Option.map_eq_some_iff.1 h
    exact ⟨i, j, List.mem_zipIdx_iff_getElem?.1 hd, List.mem_zipIdx_iff_getElem?.1 hu, hv, hp⟩
  · rintro ⟨i, j, hd, hu, hv, hp⟩
    refine ⟨⟨(t.t, i), List.mem_zipIdx_iff_getElem?.2 hd, List.mem_filterMap.2 ⟨(t.unitId, j), List.mem_zipIdx_iff_getElem?.2 hu, ?_⟩⟩, hp⟩
    rw [hv]; rfl

theorem unitIds_nodup (arr : List (Option ℤ)) (nodata : Option ℤ) (units : Option (List ℤ)) (h : ∀ l, units = some l → l.Nodup) :
    (unitIds arr nodata units).Nodup := by
  cases units with
  | some l => exact h l rfl
  | none =>
    unfold unitIds
    exact (List.perm_insertionSort _ _).nodup_iff.2 ((List.nodup_dedup _).filter _)

/-- **C87 (units of a raster)**: without a list of units, the units are the positive values of the raster other than its missing value, sorted. -/
theorem c87_units (arr : List (Option ℤ)) (nodata : Option ℤ) :
    (∀ u, u ∈ unitIds arr nodata none ↔ some u ∈ arr ∧ 0 < u ∧ nodata ≠ some u) ∧ (unitIds arr nodata none).Pairwise (· < ·) := by
  constructor
  · intro u
    unfold unitIds
    rw [List.mem_insertionSort, List.mem_filter, List.mem_dedup, List.mem_filterMap]
    simp only [id, Bool.and_eq_true, decide_eq_true_eq]
    constructor
    · rintro ⟨⟨a, ha, rfl⟩, h1, h2⟩; exact ⟨ha, h1, h2⟩
    · rintro ⟨h1, h2, h3⟩; exact ⟨⟨some u, h1, rfl⟩, h2, h3⟩
  · have h1 : (unitIds arr nodata none).Pairwise (· ≤ ·) := List.pairwise_insertionSort _ _
    have h2 := unitIds_nodup arr nodata none (by intro l h; cases h)
    exact (h1.and h2).imp fun ⟨a, b⟩ => lt_of_le_of_ne a b

/-- **C87 (stack)**: the targets loaded from a stack are the aggregates of its dates in the period and of its units. -/
theorem c87_stack (q : Request K) (times : List ℤ) (grid : ℕ → List (Option K)) (hq : q.key.source = .stack times grid) (t : Target K) :
    t ∈ fresh q ↔ ∃ i, times[i]? = some t.t ∧ t.unitId ∈ unitIds q.key.arr q.key.nodata q.units ∧
      stackCell q.key.opts q.key.arr (grid i) t.unitId = some t.value ∧ InPeriod q.key.start q.key.stop t.t := by
  unfold fresh
  rw [hq]
  simp only
  rw [mem_build]
  constructor
  · rintro ⟨i, j, hd, hu, hv, hp⟩
    rw [hu] at hv
    exact ⟨i, hd, List.mem_of_getElem? hu, hv, hp⟩
  · rintro ⟨i, hd, hu, hv, hp⟩
    obtain ⟨j, hj⟩ := List.mem_iff_getElem?.1 hu
    refine ⟨i, j, hd, hj, ?_, hp⟩
    rw [hj]; exact hv

/-- **C87 (tiles)**: the targets loaded from MODIS tiles are the aggregates, for each date of a file in the period, of the mosaic of the files of
that date. -/
theorem c87_tiles (q : Request K) (names : List String) (grid : List String → List (Option K)) (hq : q.key.source = .tiles names grid)
    (hn : ∀ l, q.units = some l → l.Nodup) (hg : ∀ l, (grid l).length = q.key.arr.length) (t : Target K) :
    t ∈ fresh q ↔ (∃ f ∈ names, q.dateOf f = t.t) ∧ t.unitId ∈ unitIds q.key.arr q.key.nodata q.units ∧
      stackCell q.key.opts q.key.arr (grid (names.filter fun f => decide (q.dateOf f = t.t))) t.unitId = some t.value ∧
      InPeriod q.key.start q.key.stop t.t := by
  unfold fresh
  rw [hq]
  simp only
  rw [mem_build]
  have hd : ∀ d, d ∈ tileDates q names ↔ (∃ f ∈ names, q.dateOf f = d) ∧ InPeriod q.key.start q.key.stop d := by
    intro d
    unfold tileDates
    rw [List.mem_insertionSort, List.mem_dedup, List.mem_filter, period_bool, List.mem_map]
  have hnd := unitIds_nodup q.key.arr q.key.nodata q.units hn
  constructor
  · rintro ⟨i, j, h1, hu, hv, hp⟩
    rw [h1] at hv
    simp only [Option.bind_some] at hv
    rw [c87_loaders _ _ _ hnd _ (hg _).symm j _ hu] at hv
    exact ⟨((hd _).1 (List.mem_of_getElem? h1)).1, List.mem_of_getElem? hu, hv, hp⟩
  · rintro ⟨hf, hu, hv, hp⟩
    obtain ⟨i, hi⟩ := List.mem_iff_getElem?.1 ((hd t.t).2 ⟨hf, hp⟩)
    obtain ⟨j, hj⟩ := List.mem_iff_getElem?.1 hu
    refine ⟨i, j, hi, hj, ?_, hp⟩
    rw [hi]
    simp only [Option.bind_some]
    rw [c87_loaders _ _ _ hnd _ (hg _).symm j _ hj]
    exact hv

/-- **C87 (order)**: targets from tiles come in the order of the dates. -/
theorem c87_sorted (q : Request K) (names : List String) (grid : List String → List (Option K)) (hq : q.key.source = .tiles names grid) :
    ((fresh q).map Target.t).Pairwise (· ≤ ·) := by
  unfold fresh
  rw [hq]
  simp only
  have hs : (tileDates q names).Pairwise (· ≤ ·) := List.pairwise_insertionSort _ _
  unfold build
  rw [List.pairwise_map]
  apply List.Pairwise.sublist List.filter_sublist
  rw [List.pairwise_flatMap]
  constructor
  · rintro ⟨d, i⟩ _
    rw [List.pairwise_filterMap]
    apply List.Pairwise.imp (R := fun _ _ => True) _ (List.pairwise_of_forall fun _ _ => trivial)
    rintro ⟨u, j⟩ ⟨u', j'⟩ _ b hb b' hb'
    obtain ⟨v, _, rfl⟩ := Option.map_eq_some_iff.1 hb
    obtain ⟨v', _, rfl⟩ := Option.map_eq_some_iff.1 hb'
    exact _root_.le_refl _
  · have : (((tileDates q names).zipIdx).map Prod.fst).Pairwise (· ≤ ·) := by rw [List.zipIdx_map_fst]; exact hs
    rw [List.pairwise_map] at this
    apply this.imp
    rintro ⟨d, i⟩ ⟨d', i'⟩ hle x hx y hy
    obtain ⟨⟨u, j⟩, _, hb⟩ := List.mem_filterMap.1 hx
    obtain ⟨⟨u', j'⟩, _, hb'⟩ := List.mem_filterMap.1 hy
    obtain ⟨v, _, rfl⟩ := Option.map_eq_some_iff.1 hb
    obtain ⟨v', _, rfl⟩ := Option.map_eq_some_iff.1 hb'
    exact hle

/-- **C87 (cache)**: with a cache directory that is empty at first, every one of a sequence of requests is answered as without cache, provided that
requests that agree in raster, options and files agree in the arguments that are not part of the key (`hydro_units`, reading of dates). -/
theorem c87_cache (qs : List (Request K)) (h : ∀ p ∈ qs, ∀ q ∈ qs, p.key = q.key → p.units = q.units ∧ p.dateOf = q.dateOf) :
    loads (fun _ => none) qs = qs.map fresh := by
  classical
  suffices H : ∀ (l : List (Request K)) (c : Key K → Option (List (Option ℤ × Option ℤ × Option K))), (∀ q ∈ l, q ∈ qs) →
      (∀ k rows, c k = some rows → ∃ p ∈ qs, p.key = k ∧ rows = toCsv (fresh p)) → loads c l = l.map fresh by
    exact H qs _ (fun q hq => hq) (by intro k rows h0; cases h0)
  intro l
  induction l with
  | nil => intro c _ _; rfl
  | cons q r ih =>
    intro c hl hc
    unfold loads
    rw [List.map_cons]
    have hq := hl q (List.mem_cons_self ..)
    have hr : ∀ x ∈ r, x ∈ qs := fun x hx => hl x (List.mem_cons_of_mem _ hx)
    cases hk : c q.key with
    | some rows =>
      have e : load c q = (fromCsv 1 none none none none rows, c) := by unfold load; rw [hk]
      rw [e]
      obtain ⟨p, hp, hpk, rfl⟩ := hc _ _ hk
      have hpq : p = q := by
        obtain ⟨h1, h2⟩ := h p hp q hq hpk
        cases p; cases q; simp_all
      subst hpq
      rw [c87_csv, ih c hr hc]
    | none =>
      have e : load c q = (fresh q, if (fresh q).isEmpty then c else Function.update c q.key (some (toCsv (fresh q)))) := by unfold load; rw [hk]
      rw [e]
      congr 1
      apply ih _ hr
      intro k rows hkr
      simp only at hkr
      split at hkr
      · exact hc k rows hkr
      · by_cases hkk : k = q.key
        · subst hkk
          rw [Function.update_self] at hkr
          cases hkr
          exact ⟨q, hq, rfl, rfl⟩
        · rw [Function.update_of_ne hkk] at hkr
          exact hc k rows hkr

/-- **C87 (cache, not in general)**: asked first for one unit and then for all of them, the cache answers the second request with the first one's
targets: whenever the two answers differ, the second request is answered wrongly. -/
theorem c87_cache_units (p q : Request K) (hk : p.key = q.key) (h0 : fresh p ≠ []) : loads (fun _ => none) [p, q] = [fresh p, fresh p] := by
  classical
  have e1 : load (fun _ => none) p = (fresh p, Function.update (fun _ => none) p.key (some (toCsv (fresh p)))) := by
    unfold load
    simp only
    rw [if_neg (by rw [List.isEmpty_iff]; exact h0)]
  have e2 : load (Function.update (fun _ => none) p.key (some (toCsv (fresh p)))) q =
      (fresh p, Function.update (fun _ => none) p.key (some (toCsv (fresh p)))) := by
    unfold load
    rw [← hk, Function.update_self]
    simp only
    rw [c87_csv]
  unfold loads
  rw [e1]
  unfold loads
  rw [e2]
  rfl

namespace Demo

/-- A raster of five pixels, two units, one date; values in percent, 250 is a cloud. -/
def arr : List (Option ℤ) := [some 1, some 1, some 2, some 2, none]
def pix : List (Option ℚ) := [some 40, some 250, some 100, some 80, some 10]
def opts : Opts ℚ := ⟨1 / 100, none, some 0, some 100, 1 / 2⟩
def key : Key ℚ := ⟨arr, none, opts, none, none, .stack [86400] fun _ => pix⟩
def one : Request ℚ := ⟨key, some [1], fun _ => 0⟩
def all : Request ℚ := ⟨key, none, fun _ => 0⟩

/-- The example: unit 1 has one pixel of two, unit 2 both. -/
theorem c87_fresh_demo : fresh all = [⟨86400, 1, 2 / 5⟩, ⟨86400, 2, 9 / 10⟩] := by decide +kernel

/-- With more than half of the pixels demanded, unit 1 has no value. -/
theorem c87_ratio_demo : stackCell { opts with ratio := 3 / 5 } arr pix 1 = none ∧ stackCell { opts with ratio := 3 / 5 } arr pix 2 = some (9 / 10) := by
  constructor <;> decide +kernel

/-- **C87 (cache, counterexample)**: asked for unit 1 with a cache directory, then for all units, one gets unit 1 again. -/
theorem c87_cache_demo : loads (fun _ => none) [one, all] = [[⟨86400, 1, 2 / 5⟩], [⟨86400, 1, 2 / 5⟩]] ∧ fresh all ≠ [⟨86400, 1, 2 / 5⟩] := by
  have h1 : fresh one = [⟨86400, 1, 2 / 5⟩] := by decide +kernel
  constructor
  · rw [c87_cache_units one all rfl (by rw [h1]; simp), h1]
  · rw [c87_fresh_demo]; decide +kernel

/-- A run of three days from day 10 on two units with ground and glacier. -/
def run : Recorded ℚ :=
  ⟨864000, 3, [4, 7], ["ground", "glacier"],
   fun c => if c = "ground" then some fun _ t => some (40 * t) else if c = "glacier" then some fun i _ => if i = 0 then none else some 300 else none,
   fun c => if c = "ground" then some fun i _ => some (if i = 0 then 1 else 3 / 4) else
     if c = "glacier" then some fun i _ => if i = 0 then none else some (1 / 4) else none⟩

/-- The example: unit 7 on its second day has 40 mm on three quarters and enough on the rest; the first target is before the run, the last one on a
unit that is not in it. -/
theorem c87_demo : (simulated 100 none run [⟨0, 7, 1⟩, ⟨864000 + 86400, 7, 1⟩, ⟨864000 + 86400, 4, 1⟩, ⟨864000, 5, 1⟩]).toOption =
    some [none, some (11 / 20), some (2 / 5), none] := by decide +kernel

def run2 : Recorded ℚ :=
  { run with
    snow := fun c => if c = "ground" then some fun _ t => some (40 * t) else some fun _ _ => some 300
    fraction := fun c => if c = "ground" then some fun _ _ => some (3 / 4) else some fun _ _ => some (1 / 4) }

/-- The hypotheses of `c87_value` are met by an example. -/
theorem c87_records : Records run2 (usedCovers none run2) [(fun _ t => 40 * (t : ℚ), fun _ _ => 3 / 4), (fun _ _ => 300, fun _ _ => 1 / 4)] := by
  refine ⟨rfl, ?_, ?_⟩
  · intro i c s hc hs
    match i with
    | 0 => cases hc; cases hs; rfl
    | 1 => cases hc; cases hs; rfl
    | i + 2 => cases hc
  · intro i c s hc hs
    match i with
    | 0 => cases hc; cases hs; rfl
    | 1 => cases hc; cases hs; rfl
    | i + 2 => cases hc

/-- **C87 (time of day)**: an image of half past ten has a value on all days of the run but the last one, and an image of the afternoon gets the
value of the following day. -/
theorem c87_hours : (simulated 100 none run [⟨864000 + 86400 + 37800, 4, 1⟩, ⟨864000 + 86400 + 50400, 4, 1⟩, ⟨864000 + 2 * 86400 + 37800, 4, 1⟩]).toOption =
    some [some (2 / 5), some (4 / 5), none] := by decide +kernel

/-- **C87 (an empty list of covers)**: counts as all covers. -/
theorem c87_empty_covers : (simulated 100 (some []) run [⟨864000 + 86400, 7, 1⟩]).toOption = some [some (11 / 20)] := by decide +kernel

end Demo
end HB.SnowObs
