import Verif.Model.TimeParams
import Verif.Spec.TimeParams
import Verif.Props.Find
import Verif.Props.Calendar
import Mathlib.Data.Rat.Floor

/-!
# C47 — time-varying parameters
-/
set_option linter.unusedSectionVars false

namespace HB

section
variable {K : Type} [Field K] [LinearOrder K] [IsStrictOrderedRing K] [FloorRing K]

/-- The clock shows a date-time when its day number is within half a second of it. -/
def Spec.Visit.Shown (v : Spec.Visit K) : Prop :=
  Spec.DateTime v.time ∧ ∃ x : K, toMJD v.time = some x ∧ |v.mjd - x| * 86400 < 1 / 2

theorem Spec.Visit.Shown.from {v : Spec.Visit K} (h : v.Shown) : fromMJD v.mjd = v.time := by
  obtain ⟨hd, x, hx, hn⟩ := h
  obtain ⟨x', hx', hr⟩ := c42_round_trip (K := K) v.time hd
  rw [hx] at hx'
  cases hx'
  exact hr _ hn

/-- The modifier a user obtains from a declaration: a fresh modifier of the right type whose setter returned true.
Declared years and dates are not empty, declared dates are sorted and distinct. -/
inductive Declares : Spec.Declaration K → Modifier K → Prop
  | years (first last : ℤ) (values : List K) (m : Modifier K) (hne : values ≠ [])
      (h : (Modifier.mk .yearly [] []).setYearly first last values = some (true, m)) :
      Declares (.years first values) m
  | months (values : List K) (m : Modifier K)
      (h : (Modifier.mk .monthly [] []).setMonthly values = some (true, m)) : Declares (.months values) m
  | dates (ds values : List K) (m : Modifier K) (hne : ds ≠ []) (hs : Spec.Sorted ds) (hd : ds.Nodup)
      (h : (Modifier.mk .dates [] []).setDates ds values = some (true, m)) : Declares (.dates (ds.zip values)) m

theorem yearsFrom_get (y0 y1 : ℤ) (i : ℕ) : (yearsFrom y0 y1 : List K)[i]? =
    if (i : ℤ) < y1 - y0 + 1 then some ((y0 + (i : ℤ) : ℤ) : K) else none := by
  unfold yearsFrom
  rw [List.getElem?_map]
  by_cases h : (i : ℤ) < y1 - y0 + 1
  · rw [List.getElem?_range (by omega), if_pos h]; rfl
  · rw [List.getElem?_eq_none (by simp; omega), if_neg h]; rfl

theorem yearsFrom_sorted (y0 y1 : ℤ) : (yearsFrom y0 y1 : List K).Pairwise (· < ·) := by
  unfold yearsFrom
  rw [List.pairwise_map]
  refine List.Pairwise.imp ?_ List.pairwise_lt_range
  intro a b hab
  exact_mod_cast (by omega : y0 + (a : ℤ) < y0 + (b : ℤ))

theorem lookup_of_exact (m : Modifier K) (x : K) (hne : m.dates ≠ []) (hs : Spec.Sorted m.dates) (hd : m.dates.Nodup)
    (i : ℕ) (h : m.dates[i]? = some x) : m.lookup x = m.valueAt i := by
  have := (c46_exact m.dates x hs hd (List.length_pos_iff.mpr hne) i).mpr h
  unfold Modifier.lookup
  rw [if_neg hne, this]

theorem lookup_of_absent (m : Modifier K) (x : K) (hne : m.dates ≠ []) (hs : Spec.Sorted m.dates) (hd : m.dates.Nodup)
    (h : x ∉ m.dates) : m.lookup x = .nan := by
  have hno : ∀ i, find m.dates x 0 ≠ .at i := fun i hc =>
    h (List.mem_of_getElem? ((c46_exact m.dates x hs hd (List.length_pos_iff.mpr hne) i).mp hc))
  unfold Modifier.lookup
  rw [if_neg hne]
  rcases hf : find m.dates x 0 with i | _ | _
  · exact absurd hf (hno i)
  · rfl
  · rfl

/-- A correctly declared modifier answers with the declared value, or with no value. -/
theorem updateValue_declared (d : Spec.Declaration K) (m : Modifier K) (hm : Declares d m) (v : Spec.Visit K)
    (hv : v.Shown) : m.updateValue v.mjd = match Spec.declared d v with | some x => .value x | none => .nan := by
  have hfrom := hv.from
  cases hm with
  | years first last values m hne h =>
    simp only [Modifier.setYearly] at h
    split at h
    · exact absurd h (by simp)
    rename_i hc
    simp only [Option.some.injEq, Prod.mk.injEq, decide_eq_true_eq] at h
    obtain ⟨hl, rfl⟩ := h
    have hlen : (values.length : ℤ) = last - first + 1 := by
      rw [hl]; unfold yearsFrom; rw [List.length_map, List.length_range]
      push Not at hc; omega
    simp only [Modifier.updateValue, hfrom, Spec.declared]
    have hne' : (yearsFrom first last : List K) ≠ [] := by
      intro e; rw [e] at hl; exact hne (List.length_eq_zero_iff.mp hl)
    have hs : Spec.Sorted (yearsFrom first last : List K) := Or.inl ((yearsFrom_sorted first last).imp le_of_lt)
    have hd : (yearsFrom first last : List K).Nodup := (yearsFrom_sorted first last).imp ne_of_lt
    by_cases hin : first ≤ v.time.year ∧ v.time.year ≤ last
    · have hg : (yearsFrom first last : List K)[(v.time.year - first).toNat]? = some (v.time.year : K) := by
        rw [yearsFrom_get, if_pos (by omega)]
        congr 2; omega
      rw [lookup_of_exact ⟨.yearly, values, yearsFrom first last⟩ _ hne' hs hd _ hg, if_pos hin.1]
      have hlt : (v.time.year - first).toNat < values.length := by omega
      simp only [Modifier.valueAt, List.getElem?_eq_getElem hlt]
    · rw [lookup_of_absent ⟨.yearly, values, yearsFrom first last⟩ _ hne' hs hd]
      · split_ifs with h1
        · rw [List.getElem?_eq_none (by omega)]
        · rfl
      · intro hmem
        obtain ⟨i, hi⟩ := List.mem_iff_getElem?.mp hmem
        rw [yearsFrom_get] at hi
        split_ifs at hi with hlt
        have := Int.cast_injective (Option.some.inj hi)
        exact hin (by omega)
  | months values m h =>
    simp only [Modifier.setMonthly, ne_eq, not_true_eq_false, if_false, Option.some.injEq, Prod.mk.injEq,
      decide_eq_true_eq] at h
    obtain ⟨hl, rfl⟩ := h
    simp only [Modifier.updateValue, hfrom, Spec.declared, Modifier.valueAt]
    have h1 := hv.1.date.m1; have h2 := hv.1.date.m2
    rw [List.getElem?_eq_getElem (by omega)]
  | dates ds values m hne hs hd h =>
    simp only [Modifier.setDates, ne_eq, not_true_eq_false, if_false, Option.some.injEq, Prod.mk.injEq,
      decide_eq_true_eq] at h
    obtain ⟨hl, rfl⟩ := h
    simp only [Modifier.updateValue, Spec.declared]
    by_cases hin : v.mjd ∈ ds
    · obtain ⟨i, hi⟩ := List.mem_iff_getElem?.mp hin
      obtain ⟨hlt, hg⟩ := List.getElem?_eq_some_iff.mp hi
      rw [lookup_of_exact ⟨.dates, values, ds⟩ _ hne hs hd i hi]
      have hfind : (ds.zip values).find? (fun e => decide (e.1 = v.mjd)) = some (v.mjd, values[i]'(by omega)) := by
        rw [List.find?_eq_some_iff_getElem]
        refine ⟨by simp, i, by simp [List.length_zip]; omega, by simp [List.getElem_zip, hg], fun j hj => ?_⟩
        simp only [List.getElem_zip, Bool.not_eq_true', decide_eq_false_iff_not]
        intro e
        have := (List.Nodup.getElem_inj_iff hd).mp (e.trans hg.symm)
        omega
      rw [hfind]
      simp only [Modifier.valueAt, Option.map_some, List.getElem?_eq_getElem (by omega : i < values.length)]
    · rw [lookup_of_absent ⟨.dates, values, ds⟩ _ hne hs hd hin]
      have hfind : (ds.zip values).find? (fun e => decide (e.1 = v.mjd)) = none := by
        rw [List.find?_eq_none]
        rintro ⟨a, b⟩ hab
        simp only [decide_eq_true_eq]
        rintro rfl
        exact hin (List.of_mem_zip hab).1
      rw [hfind]; rfl

/-- Effect of one update on a parameter. -/
theorem param_update_eq (p : Param K) (d : Spec.Declaration K) (m : Modifier K) (hp : p.modifier = some m)
    (hm : Declares d m) (v : Spec.Visit K) (hv : v.Shown) :
    p.update v.mjd = some { p with value := (Spec.declared d v).or p.value } := by
  unfold Param.update
  rw [hp]
  simp only
  rw [updateValue_declared d m hm v hv]
  rcases Spec.declared d v with _ | x
  · simp only [Option.none_or]; cases p; cases hp; rfl
  · simp only [Option.some_or]

/-- The refresh of a list of parameters, each declared: the listed ones take the declared value, the others stay. -/
theorem refresh_eq (decl : ℕ → Spec.Declaration K) (v : Spec.Visit K) (hv : v.Shown) (l : List ℕ) (mem : ℕ → Param K)
    (hl : ∀ i ∈ l, ∃ m, (mem i).modifier = some m ∧ Declares (decl i) m) :
    refresh v.mjd l mem = some fun i => if i ∈ l then { mem i with value := (Spec.declared (decl i) v).or (mem i).value }
      else mem i := by
  induction l generalizing mem with
  | nil => simp [refresh]
  | cons a r ih =>
    obtain ⟨m, hm, hd⟩ := hl a List.mem_cons_self
    rw [refresh, param_update_eq (mem a) (decl a) m hm hd v hv]
    simp only
    rw [ih]
    · congr 1
      funext i
      by_cases hia : i = a
      · subst hia
        by_cases hr : i ∈ r
        · simp only [hr, if_true, Function.update_self, List.mem_cons, true_or]
          rcases Spec.declared (decl i) v with _ | x <;> simp
        · simp [hr]
      · simp [hia, Function.update_of_ne hia]
    · intro i hi
      by_cases hia : i = a
      · subst hia; exact ⟨m, by simp [hm], hd⟩
      · rw [Function.update_of_ne hia]; exact hl i (List.mem_cons_of_mem _ hi)

/-- Which list a declared parameter goes to. -/
def kindOf : Spec.Declaration K → ModKind
  | .years .. => .yearly
  | .months .. => .monthly
  | .dates .. => .dates

theorem Declares.kind {d : Spec.Declaration K} {m : Modifier K} (h : Declares d m) : m.kind = kindOf d := by
  cases h with
  | years first last values m hne h =>
    simp only [Modifier.setYearly] at h
    split at h
    · exact absurd h (by simp)
    · rw [← (Prod.mk.inj (Option.some.inj h)).2]; rfl
  | months values m h =>
    simp only [Modifier.setMonthly, ne_eq, not_true_eq_false, if_false] at h
    rw [← (Prod.mk.inj (Option.some.inj h)).2]; rfl
  | dates ds values m hne hs hd h =>
    simp only [Modifier.setDates, ne_eq, not_true_eq_false, if_false] at h
    rw [← (Prod.mk.inj (Option.some.inj h)).2]; rfl

/-- Registered parameters by kind. -/
structure Registered (mem : ℕ → Param K) (decl : ℕ → Spec.Declaration K) (reg : List ℕ) (u : Updater K) : Prop where
  declares : ∀ i ∈ reg, ∃ m, (mem i).modifier = some m ∧ Declares (decl i) m
  yearly : ∀ i, i ∈ u.yearly ↔ i ∈ reg ∧ kindOf (decl i) = .yearly
  monthly : ∀ i, i ∈ u.monthly ↔ i ∈ reg ∧ kindOf (decl i) = .monthly
  dated : ∀ i, i ∈ u.dated ↔ i ∈ reg ∧ kindOf (decl i) = .dates
  active : reg ≠ [] → u.active = true

theorem registered_foldl (mem : ℕ → Param K) (decl : ℕ → Spec.Declaration K) (reg done : List ℕ) (u : Updater K)
    (hu : Registered mem decl done u) (hreg : ∀ i ∈ reg, ∃ m, (mem i).modifier = some m ∧ Declares (decl i) m) :
    Registered mem decl (done ++ reg) (reg.foldl (fun u i => u.add mem (some i)) u) := by
  induction reg generalizing done u with
  | nil => simpa using hu
  | cons a r ih =>
    obtain ⟨m, hm, hd⟩ := hreg a List.mem_cons_self
    have := ih (done ++ [a]) (u.add mem (some a)) ?_ (fun i hi => hreg i (List.mem_cons_of_mem _ hi))
    · simpa using this
    · have hk := hd.kind
      refine ⟨fun i hi => ?_, fun i => ?_, fun i => ?_, fun i => ?_, fun _ => ?_⟩
      · rcases List.mem_append.mp hi with h | h
        · exact hu.declares i h
        · rw [List.mem_singleton.mp h]; exact ⟨m, hm, hd⟩
      all_goals
        simp only [Updater.add, hm]
        rcases hmk : m.kind
      all_goals rw [hmk] at hk
      all_goals simp only [List.mem_append, List.mem_singleton]
      all_goals try rfl
      all_goals first | rw [hu.yearly i] | rw [hu.monthly i] | rw [hu.dated i]
      all_goals by_cases hia : i = a
      all_goals simp [hia, ← hk]

/-- One `DateUpdate` for the registered parameters. -/
theorem dateUpdate_eq (mem : ℕ → Param K) (decl : ℕ → Spec.Declaration K) (reg : List ℕ) (u : Updater K)
    (hu : Registered mem decl reg u) (hne : reg ≠ []) (v : Spec.Visit K) (hv : v.Shown)
    (hprev : ∀ i ∈ reg, (kindOf (decl i) = .yearly → (fromMJD u.previous).year = v.time.year →
        (Spec.declared (decl i) v).or (mem i).value = (mem i).value) ∧
      (kindOf (decl i) = .monthly → (fromMJD u.previous).year = v.time.year → (fromMJD u.previous).month = v.time.month →
        (Spec.declared (decl i) v).or (mem i).value = (mem i).value)) :
    u.dateUpdate mem v.mjd = some ({ u with previous := v.mjd },
      fun i => if i ∈ reg then { mem i with value := (Spec.declared (decl i) v).or (mem i).value } else mem i) := by
  have hk : ∀ i ∈ reg, kindOf (decl i) = .yearly ∨ kindOf (decl i) = .monthly ∨ kindOf (decl i) = .dates := by
    intro i _; cases decl i <;> simp [kindOf]
  have sub : ∀ (l : List ℕ) (mem' : ℕ → Param K), (∀ i, i ∈ l → i ∈ reg) → (∀ i, (mem' i).modifier = (mem i).modifier) →
      ∀ i ∈ l, ∃ m, (mem' i).modifier = some m ∧ Declares (decl i) m := by
    intro l mem' h1 h2 i hi; rw [h2]; exact hu.declares i (h1 i hi)
  have sy : ∀ i, i ∈ u.yearly → i ∈ reg := fun i h => ((hu.yearly i).mp h).1
  have sm : ∀ i, i ∈ u.monthly → i ∈ reg := fun i h => ((hu.monthly i).mp h).1
  have sd : ∀ i, i ∈ u.dated → i ∈ reg := fun i h => ((hu.dated i).mp h).1
  unfold Updater.dateUpdate
  rw [hu.active hne, hv.from]
  simp only [Bool.not_true, Bool.false_eq_true, if_false]
  by_cases hy : (fromMJD u.previous).year = v.time.year
  · by_cases hmth : (fromMJD u.previous).month = v.time.month
    · simp only [hy, hmth, ne_eq, not_true_eq_false, if_false]
      rw [refresh_eq decl v hv _ mem (sub _ mem sd fun _ => rfl)]
      simp only [Option.map_some, Option.some.injEq, Prod.mk.injEq, true_and]
      funext i
      by_cases hi : i ∈ reg
      · rcases hk i hi with h | h | h
        · have hn : i ∉ u.dated := fun hc => by rw [((hu.dated i).mp hc).2] at h; cases h
          simp only [hi, hn, if_true, if_false, (hprev i hi).1 h hy]
        · have hn : i ∉ u.dated := fun hc => by rw [((hu.dated i).mp hc).2] at h; cases h
          simp only [hi, hn, if_true, if_false, (hprev i hi).2 h hy hmth]
        · have hn : i ∈ u.dated := (hu.dated i).mpr ⟨hi, h⟩
          simp only [hi, hn, if_true]
      · have hn : i ∉ u.dated := fun hc => hi (sd i hc)
        simp only [hi, hn, if_false]
    · simp only [hy, ne_eq, not_true_eq_false, if_false, hmth, not_false_eq_true, if_true]
      rw [refresh_eq decl v hv _ mem (sub _ mem sm fun _ => rfl)]
      rw [Option.bind_some, refresh_eq decl v hv _ _ (sub _ _ sd fun i => by dsimp only; split_ifs <;> rfl)]
      simp only [Option.map_some, Option.some.injEq, Prod.mk.injEq, true_and]
      funext i
      by_cases hi : i ∈ reg
      · rcases hk i hi with h | h | h
        · have hn : i ∉ u.dated := fun hc => by rw [((hu.dated i).mp hc).2] at h; cases h
          have hn2 : i ∉ u.monthly := fun hc => by rw [((hu.monthly i).mp hc).2] at h; cases h
          simp only [hi, hn, hn2, if_true, if_false, (hprev i hi).1 h hy]
        · have hn : i ∉ u.dated := fun hc => by rw [((hu.dated i).mp hc).2] at h; cases h
          have hn2 : i ∈ u.monthly := (hu.monthly i).mpr ⟨hi, h⟩
          simp only [hi, hn, hn2, if_true, if_false]
        · have hn : i ∈ u.dated := (hu.dated i).mpr ⟨hi, h⟩
          have hn2 : i ∉ u.monthly := fun hc => by rw [((hu.monthly i).mp hc).2] at h; cases h
          simp only [hi, hn, hn2, if_true, if_false]
      · have hn : i ∉ u.dated := fun hc => hi (sd i hc)
        have hn2 : i ∉ u.monthly := fun hc => hi (sm i hc)
        simp only [hi, hn, hn2, if_false]
  · simp only [hy, ne_eq, not_false_eq_true, if_true]
    rw [refresh_eq decl v hv _ mem (sub _ mem sy fun _ => rfl)]
    rw [Option.bind_some, refresh_eq decl v hv _ _ (sub _ _ sm fun i => by dsimp only; split_ifs <;> rfl)]
    rw [Option.bind_some, refresh_eq decl v hv _ _ (sub _ _ sd fun i => by dsimp only; split_ifs <;> rfl)]
    simp only [Option.map_some, Option.some.injEq, Prod.mk.injEq, true_and]
    funext i
    by_cases hi : i ∈ reg
    · rcases hk i hi with h | h | h
      · have hn : i ∉ u.dated := fun hc => by rw [((hu.dated i).mp hc).2] at h; cases h
        have hn2 : i ∉ u.monthly := fun hc => by rw [((hu.monthly i).mp hc).2] at h; cases h
        have hn3 : i ∈ u.yearly := (hu.yearly i).mpr ⟨hi, h⟩
        simp only [hi, hn, hn2, hn3, if_true, if_false]
      · have hn : i ∉ u.dated := fun hc => by rw [((hu.dated i).mp hc).2] at h; cases h
        have hn2 : i ∈ u.monthly := (hu.monthly i).mpr ⟨hi, h⟩
        have hn3 : i ∉ u.yearly := fun hc => by rw [((hu.yearly i).mp hc).2] at h; cases h
        simp only [hi, hn, hn2, hn3, if_true, if_false]
      · have hn : i ∈ u.dated := (hu.dated i).mpr ⟨hi, h⟩
        have hn2 : i ∉ u.monthly := fun hc => by rw [((hu.monthly i).mp hc).2] at h; cases h
        have hn3 : i ∉ u.yearly := fun hc => by rw [((hu.yearly i).mp hc).2] at h; cases h
        simp only [hi, hn, hn2, hn3, if_true, if_false]
    · have hn : i ∉ u.dated := fun hc => hi (sd i hc)
      have hn2 : i ∉ u.monthly := fun hc => hi (sm i hc)
      have hn3 : i ∉ u.yearly := fun hc => hi (sy i hc)
      simp only [hi, hn, hn2, hn3, if_false]

theorem inForce_snoc (init : Option K) (d : Spec.Declaration K) (vs : List (Spec.Visit K)) (v : Spec.Visit K) :
    Spec.inForce init d (vs ++ [v]) = (Spec.declared d v).or (Spec.inForce init d vs) := by
  unfold Spec.inForce
  rw [List.reverse_append, List.reverse_singleton, List.singleton_append, List.findSome?_cons]
  rcases Spec.declared d v with _ | x <;> simp

/-- The declared value depends on the year or the month only. -/
theorem declared_same_year (d : Spec.Declaration K) (h : kindOf d = .yearly) (a b : Spec.Visit K)
    (hy : a.time.year = b.time.year) : Spec.declared d a = Spec.declared d b := by
  cases d <;> simp_all [kindOf, Spec.declared]

theorem declared_same_month (d : Spec.Declaration K) (h : kindOf d = .monthly) (a b : Spec.Visit K)
    (hy : a.time.month = b.time.month) : Spec.declared d a = Spec.declared d b := by
  cases d <;> simp_all [kindOf, Spec.declared]

/-- Memory after some visits. -/
def paramsAfter (mem : ℕ → Param K) (decl : ℕ → Spec.Declaration K) (reg : List ℕ) (vs : List (Spec.Visit K)) :
    ℕ → Param K :=
  fun i => if i ∈ reg then { mem i with value := Spec.inForce (mem i).value (decl i) vs } else mem i

theorem updates_eq (mem : ℕ → Param K) (decl : ℕ → Spec.Declaration K) (reg : List ℕ) (hne : reg ≠ [])
    (u0 : Updater K) (hu0 : Registered mem decl reg u0) (past vs : List (Spec.Visit K)) (hvs : ∀ v ∈ vs, v.Shown)
    (u : Updater K) (hlast : (past = [] ∧ u = u0 ∧ ∀ v ∈ vs.head?, (fromMJD u0.previous).year ≠ v.time.year) ∨
      ∃ p w, past = p ++ [w] ∧ w.Shown ∧ u = { u0 with previous := w.mjd }) :
    ∃ q, u.updates (paramsAfter mem decl reg past) (vs.map (·.mjd)) =
      some ({ u0 with previous := q }, paramsAfter mem decl reg (past ++ vs)) := by
  induction vs generalizing past u with
  | nil =>
    rcases hlast with ⟨-, rfl, -⟩ | ⟨p, w, -, -, rfl⟩
    · exact ⟨u.previous, by simp [Updater.updates]⟩
    · exact ⟨w.mjd, by simp [Updater.updates]⟩
  | cons v r ih =>
    have hv := hvs v List.mem_cons_self
    have hu : Registered (paramsAfter mem decl reg past) decl reg u := by
      have hmod : ∀ i, (paramsAfter mem decl reg past i).modifier = (mem i).modifier := by
        intro i; unfold paramsAfter; split_ifs <;> rfl
      have : u.yearly = u0.yearly ∧ u.monthly = u0.monthly ∧ u.dated = u0.dated ∧ u.active = u0.active := by
        rcases hlast with ⟨-, rfl, -⟩ | ⟨p, w, -, -, rfl⟩ <;> exact ⟨rfl, rfl, rfl, rfl⟩
      obtain ⟨e1, e2, e3, e4⟩ := this
      refine ⟨fun i hi => by rw [hmod]; exact hu0.declares i hi, ?_, ?_, ?_, ?_⟩
      · rw [e1]; exact hu0.yearly
      · rw [e2]; exact hu0.monthly
      · rw [e3]; exact hu0.dated
      · rw [e4]; exact hu0.active
    have hstep := dateUpdate_eq (paramsAfter mem decl reg past) decl reg u hu hne v hv ?_
    · rw [List.map_cons, Updater.updates, hstep, Option.bind_some]
      have hmem : (fun i => if i ∈ reg then (⟨(Spec.declared (decl i) v).or (paramsAfter mem decl reg past i).value,
          (paramsAfter mem decl reg past i).modifier⟩ : Param K) else paramsAfter mem decl reg past i) =
          paramsAfter mem decl reg (past ++ [v]) := by
        funext i
        unfold paramsAfter
        by_cases hi : i ∈ reg
        · simp only [hi, if_true, inForce_snoc]
        · simp only [hi, if_false]
      rw [hmem]
      have := ih (past ++ [v]) (fun w hw => hvs w (List.mem_cons_of_mem _ hw)) { u with previous := v.mjd }
        (Or.inr ⟨past, v, rfl, hv, by rcases hlast with ⟨-, rfl, -⟩ | ⟨p, w, -, -, rfl⟩ <;> rfl⟩)
      simpa using this
    · intro i hi
      have hval : (paramsAfter mem decl reg past i).value = Spec.inForce (mem i).value (decl i) past := by
        unfold paramsAfter; simp only [hi, if_true]
      rw [hval]
      rcases hlast with ⟨-, rfl, h0⟩ | ⟨p, w, rfl, hw, rfl⟩
      · have := h0 v (by simp)
        exact ⟨fun _ h => absurd h this, fun _ h => absurd h this⟩
      · have hwf := hw.from
        simp only [hwf]
        refine ⟨fun hk h => ?_, fun hk h h' => ?_⟩
        · rw [inForce_snoc, declared_same_year (decl i) hk w v h, ← Option.or_assoc, Option.or_self]
        · rw [inForce_snoc, declared_same_month (decl i) hk w v h', ← Option.or_assoc, Option.or_self]

/-- **C47.** Take any parameters, correctly declared and registered, and any series of dates (any order, any spacing, with a
clock error below half a second), the first of them not in 1858.  Updating on these dates never goes wrong, every
registered parameter ends with the value declared for the latest date having one (its initial value if none has), and no
other parameter changes. -/
theorem c47_values_partial (mem : ℕ → Param K) (decl : ℕ → Spec.Declaration K) (reg : List ℕ)
    (hreg : ∀ i ∈ reg, ∃ m, (mem i).modifier = some m ∧ Declares (decl i) m)
    (vs : List (Spec.Visit K)) (hvs : ∀ v ∈ vs, v.Shown) (hfirst : ∀ v ∈ vs.head?, v.time.year ≠ 1858) :
    ∃ u mem', (reg.foldl (fun u i => u.add mem (some i)) Updater.new).updates mem (vs.map (·.mjd)) = some (u, mem') ∧
      (∀ i ∈ reg, (mem' i).value = Spec.inForce (mem i).value (decl i) vs) ∧ (∀ i, i ∉ reg → mem' i = mem i) := by
  have h1858 : (fromMJD (0 : K)).year = 1858 := by
    have hd : Spec.DateTime ⟨1858, 11, 17, 0, 0, 0⟩ := by
      refine ⟨⟨by decide, by decide, by decide, by decide⟩, by decide, by decide, by decide, by decide, by decide,
        by decide, by decide, by decide⟩
    have : (Spec.Visit.mk (0 : K) ⟨1858, 11, 17, 0, 0, 0⟩).Shown := by
      refine ⟨hd, 0, ?_, by simp⟩
      unfold toMJD
      rw [if_pos hd.valid]
      have : sysSeconds ⟨1858, 11, 17, 0, 0, 0⟩ = -40587 * 86400 := by decide
      rw [this]; unfold secondsToMjd; norm_num
    rw [this.from]
  by_cases hne : reg = []
  · subst hne
    have : ∀ ds : List K, (Updater.new : Updater K).updates mem ds = some (Updater.new, mem) := by
      intro ds
      induction ds with
      | nil => rfl
      | cons d r ih =>
        rw [Updater.updates]
        simp only [Updater.dateUpdate, Updater.new, Bool.not_false, if_true, Option.bind_some]
        exact ih
    exact ⟨_, _, this _, by simp, by simp⟩
  · have hR : Registered mem decl reg (reg.foldl (fun u i => u.add mem (some i)) Updater.new) := by
      have := registered_foldl mem decl reg [] Updater.new
        ⟨by simp, by simp [Updater.new], by simp [Updater.new], by simp [Updater.new], by simp⟩ hreg
      simpa using this
    have hprev : (reg.foldl (fun u i => u.add mem (some i)) (Updater.new : Updater K)).previous = 0 := by
      have : ∀ (l : List ℕ) (u : Updater K), (l.foldl (fun u i => u.add mem (some i)) u).previous = u.previous := by
        intro l
        induction l with
        | nil => intro u; rfl
        | cons a r ih =>
          intro u
          rw [List.foldl_cons, ih]
          simp only [Updater.add]
          split
          · rfl
          · split <;> rfl
      rw [this]; rfl
    obtain ⟨q, hq⟩ := updates_eq mem decl reg hne _ hR [] vs hvs _
      (Or.inl ⟨rfl, rfl, fun v hv => by rw [hprev, h1858]; exact (hfirst v hv).symm⟩)
    have hm0 : paramsAfter mem decl reg [] = mem := by
      funext i; unfold paramsAfter
      split_ifs
      · simp [Spec.inForce]
      · rfl
    rw [hm0, List.nil_append] at hq
    refine ⟨_, _, hq, fun i hi => ?_, fun i hi => ?_⟩
    · unfold paramsAfter; simp only [hi, if_true]
    · unfold paramsAfter; simp only [hi, if_false]

/-- **C47 (steps of a run).** At step `k` of a run the value in force is the one declared for the latest of the dates of
steps 1..k (counting from 0) having one: every step but the first sees its own year, month or date. -/
theorem c47_steps_partial (mem : ℕ → Param K) (decl : ℕ → Spec.Declaration K) (reg : List ℕ)
    (hreg : ∀ i ∈ reg, ∃ m, (mem i).modifier = some m ∧ Declares (decl i) m)
    (vs : List (Spec.Visit K)) (hvs : ∀ v ∈ vs, v.Shown) (h1858 : ∀ v ∈ vs, v.time.year ≠ 1858) (k : ℕ) :
    ∃ mem', (reg.foldl (fun u i => u.add mem (some i)) Updater.new).atStep mem (vs.map (·.mjd)) k = some mem' ∧
      ∀ i ∈ reg, (mem' i).value = Spec.inForce (mem i).value (decl i) (vs.tail.take k) := by
  obtain ⟨u, mem', h, hv, -⟩ := c47_values_partial mem decl reg hreg (vs.tail.take k)
    (fun v hv => hvs v (List.mem_of_mem_tail (List.mem_of_mem_take hv)))
    (fun v hv => h1858 v (List.mem_of_mem_tail (List.mem_of_mem_take (List.mem_of_mem_head? hv))))
  refine ⟨mem', ?_, hv⟩
  unfold Updater.atStep
  rw [← List.map_tail, ← List.map_take, h]; rfl

end

/-! ## Concrete parameters -/

namespace TimeDemo

/-- Three parameters: monthly (values 1..12), yearly (2001: 5, 2002: 6), dated (15 Jan and 1 March 2001). -/
def mem : ℕ → Param ℚ := fun i =>
  if i = 0 then ⟨some 100, some ⟨.monthly, [1, 2, 3, 4, 5, 6, 7, 8, 9, 10, 11, 12], []⟩⟩
  else if i = 1 then ⟨some 200, some ⟨.yearly, [5, 6], [2001, 2002]⟩⟩
  else if i = 2 then ⟨some 300, some ⟨.dates, [7, 8], [51924, 51969]⟩⟩
  else ⟨some 400, none⟩

def decl : ℕ → Spec.Declaration ℚ := fun i =>
  if i = 0 then .months [1, 2, 3, 4, 5, 6, 7, 8, 9, 10, 11, 12]
  else if i = 1 then .years 2001 [5, 6]
  else .dates [(51924, 7), (51969, 8)]

/-- 31 December 2000, 1 January, 15 January, 16 January, 1 March 2001, 1 January 2003. -/
def visits : List (Spec.Visit ℚ) := [⟨51909, 2000, 12, 31, 0, 0, 0⟩, ⟨51910, 2001, 1, 1, 0, 0, 0⟩,
  ⟨51924, 2001, 1, 15, 0, 0, 0⟩, ⟨51925, 2001, 1, 16, 0, 0, 0⟩, ⟨51969, 2001, 3, 1, 0, 0, 0⟩,
  ⟨52640, 2003, 1, 1, 0, 0, 0⟩]

/-- Values of the parameters at each step. -/
def valuesAt (k : ℕ) : Option (List (Option ℚ)) :=
  (([0, 1, 2].foldl (fun u i => u.add mem (some i)) Updater.new).atStep mem (visits.map (·.mjd)) k).map
    fun m => [(m 0).value, (m 1).value, (m 2).value, (m 3).value]

/-- The hypotheses of the theorems are met. -/
example : (∀ i ∈ [0, 1, 2], ∃ m, (mem i).modifier = some m ∧ Declares (decl i) m) ∧ (∀ v ∈ visits, v.Shown) ∧
    (∀ v ∈ visits, v.time.year ≠ 1858) := by
  refine ⟨?_, ?_, by decide⟩
  · intro i hi
    simp only [List.mem_cons, List.not_mem_nil, or_false] at hi
    rcases hi with rfl | rfl | rfl
    · exact ⟨_, rfl, .months _ _ (by simp [Modifier.setMonthly])⟩
    · refine ⟨_, rfl, .years 2001 2002 _ _ (by simp) ?_⟩
      simp [Modifier.setYearly, yearsFrom, List.range_succ]; norm_num
    · refine ⟨_, rfl, ?_⟩
      refine Declares.dates [51924, 51969] [7, 8] _ (by simp) (Or.inl (by decide +kernel)) (by decide +kernel) ?_
      simp [Modifier.setDates]
  · have : ∀ v ∈ visits, toMJD v.time = some v.mjd := by decide +kernel
    have hd : ∀ v ∈ visits, Spec.DateTime v.time := by
      intro v hv
      simp only [visits, List.mem_cons, List.not_mem_nil, or_false] at hv
      rcases hv with rfl | rfl | rfl | rfl | rfl | rfl <;>
        exact ⟨⟨by decide, by decide, by decide, by decide⟩, by decide, by decide, by decide, by decide, by decide,
          by decide, by decide, by decide⟩
    exact fun v hv => ⟨hd v hv, v.mjd, this v hv, by simp⟩

/-- What the run sees, step after step. -/
example : (List.range 6).map valuesAt = [
    some [some 100, some 200, some 300, some 400], some [some 1, some 5, some 300, some 400],
    some [some 1, some 5, some 7, some 400], some [some 1, some 5, some 7, some 400],
    some [some 3, some 5, some 8, some 400], some [some 1, some 5, some 8, some 400]] := by decide +kernel

end TimeDemo

/-- The first step of a run does not see its own month: a December start with a December value of 12 keeps the initial
value 100. -/
theorem c47_first_step_ignored : TimeDemo.valuesAt 0 = some [some 100, some 200, some 300, some 400] ∧
    Spec.declared (TimeDemo.decl 0) ⟨51909, 2000, 12, 31, 0, 0, 0⟩ = some 12 := by decide +kernel

/-- Dates given in disorder are accepted (the setter returns true) and then not found. -/
theorem c47_unsorted_dates_ignored : ∃ m : Modifier ℚ,
    (Modifier.mk .dates [] []).setDates [51969, 51910, 51925] [1, 2, 3] = some (true, m) ∧
    m.updateValue 51925 = .nan ∧
    Spec.declared (.dates [((51969 : ℚ), 1), (51910, 2), (51925, 3)]) ⟨51925, 2001, 1, 16, 0, 0, 0⟩ = some 3 := by
  refine ⟨⟨.dates, [1, 2, 3], [51969, 51910, 51925]⟩, ?_, ?_, by decide +kernel⟩
  · simp [Modifier.setDates]
  · have h : find ([51969, 51910, 51925] : List ℚ) 51925 0 = .notFound := by decide +kernel
    simp only [Modifier.updateValue, Modifier.lookup, h]
    rfl

/-- A refused table (eleven monthly values, setter returns false) is kept all the same: the update of a December date then
reads past its end. -/
theorem c47_refused_table_used : ∃ m : Modifier ℚ,
    (Modifier.mk .monthly [] []).setMonthly [1, 2, 3, 4, 5, 6, 7, 8, 9, 10, 11] = some (false, m) ∧
    m.updateValue 51909 = .undefined := by
  refine ⟨⟨.monthly, [1, 2, 3, 4, 5, 6, 7, 8, 9, 10, 11], []⟩, ?_, ?_⟩
  · simp [Modifier.setMonthly]
  · have h : ((fromMJD (51909 : ℚ)).month - 1).toNat = 11 := by decide +kernel
    simp only [Modifier.updateValue, Modifier.valueAt, h]
    rfl

/-- An empty range of years is accepted, and any update of the parameter reads an empty table. -/
theorem c47_empty_years_accepted : ∃ m : Modifier ℚ,
    (Modifier.mk .yearly [] []).setYearly 2001 2000 [] = some (true, m) ∧ ∀ x, m.updateValue x = .undefined := by
  refine ⟨⟨.yearly, [], []⟩, ?_, fun x => ?_⟩
  · simp [Modifier.setYearly, yearsFrom]
  · simp [Modifier.updateValue, Modifier.lookup]

end HB
