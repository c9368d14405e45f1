import Verif.Model.DateTextLemmas
import Mathlib.Data.List.TakeWhile

/-!
# The patterns tried before the right one do not match
-/

namespace HB.DateText

/-- All digits. -/
def D : List Char := "0123456789".toList

/-- Shapes of the years 1900-1999, 2000-2099 and 2100. -/
def years : List (List (List Char)) := [[['1'], ['9'], D, D], [['2'], ['0'], D, D], [['2'], ['1'], ['0'], ['0']]]

/-- Shapes of the months 1-9 and 10-12. -/
def months : List (List (List Char)) := [[['0'], D], [['1'], ['0', '1', '2']]]

/-- Shapes of years and months. -/
def eras : List (List (List Char) × List (List Char)) := years.flatMap fun y => months.map fun m => (y, m)

/-- Shape of a field, given the shapes of the year and of the month. -/
def shapeNum (e : List (List Char) × List (List Char)) : Char → List (List Char)
  | 'Y' => e.1
  | 'm' => e.2
  | 'd' => [['0', '1', '2', '3'], D]
  | 'H' => [['0', '1', '2'], D]
  | 'M' => [['0', '1', '2', '3', '4', '5'], D]
  | 'S' => [['0', '1', '2', '3', '4', '5'], D]
  | _ => [D, D]

/-- Shape of a text written with a pattern. -/
def shape (y : List (List Char) × List (List Char)) : List Item → List (List Char)
  | [] => []
  | .num c :: f => shapeNum y c ++ shape y f
  | .sp :: f => [' '] :: shape y f
  | .lit c :: f => [c] :: shape y f

theorem Spec.Modern.four {t : CTime} (h : Spec.Modern t) : FourDigit t := ⟨h.valid, by have := h.y0; omega, by have := h.y1; omega⟩

theorem digit_mem_D (k : ℕ) (h : k < 10) : Spec.digit k ∈ D := by interval_cases k <;> decide

theorem two_fits (v n : ℕ) (S : List Char) (hv : v < n) (hn : n ≤ 100) (hS : ∀ k, k ≤ (n - 1) / 10 → Spec.digit k ∈ S) :
    Fits (Spec.two v) [S, D] := by
  have h1 : v / 10 % 10 ≤ (n - 1) / 10 := by omega
  exact List.Forall₂.cons (hS _ h1) (List.Forall₂.cons (digit_mem_D _ (by omega)) List.Forall₂.nil)

theorem year_fits {t : CTime} (h : Spec.Modern t) : ∃ y ∈ years, Fits (Spec.four t.year.toNat) y := by
  have h0 := h.y0; have h1 := h.y1
  obtain ⟨v, hv⟩ : ∃ v, v = t.year.toNat := ⟨_, rfl⟩
  rw [← hv]
  have d3 := digit_mem_D (v / 10 % 10) (by omega)
  have d4 := digit_mem_D (v % 10) (by omega)
  rcases Nat.lt_or_ge v 2000 with h2 | h2
  · refine ⟨_, List.mem_cons_self, ?_⟩
    refine List.Forall₂.cons ?_ (List.Forall₂.cons ?_ (List.Forall₂.cons d3 (List.Forall₂.cons d4 List.Forall₂.nil)))
    · rw [show v / 1000 % 10 = 1 by omega]; decide
    · rw [show v / 100 % 10 = 9 by omega]; decide
  · rcases Nat.lt_or_ge v 2100 with h3 | h3
    · refine ⟨_, List.mem_cons_of_mem _ List.mem_cons_self, ?_⟩
      refine List.Forall₂.cons ?_ (List.Forall₂.cons ?_ (List.Forall₂.cons d3 (List.Forall₂.cons d4 List.Forall₂.nil)))
      · rw [show v / 1000 % 10 = 2 by omega]; decide
      · rw [show v / 100 % 10 = 0 by omega]; decide
    · refine ⟨_, List.mem_cons_of_mem _ (List.mem_cons_of_mem _ List.mem_cons_self), ?_⟩
      obtain rfl : v = 2100 := by omega
      exact List.Forall₂.cons (by decide) (List.Forall₂.cons (by decide) (List.Forall₂.cons (by decide)
        (List.Forall₂.cons (by decide) List.Forall₂.nil)))

theorem Fits.append {s s' : List Char} {a a' : List (List Char)} (h : Fits s a) (h' : Fits s' a') : Fits (s ++ s') (a ++ a') := by
  induction h with
  | nil => exact h'
  | cons hc _ ih => exact List.Forall₂.cons hc ih

theorem month_fits {t : CTime} (h : Spec.Modern t) : ∃ m ∈ months, Fits (Spec.two t.month.toNat) m := by
  have h0 := h.valid.date.m1; have h1 := h.valid.date.m2
  obtain ⟨v, hv⟩ : ∃ v, v = t.month.toNat := ⟨_, rfl⟩
  rw [← hv]
  have hv1 : 1 ≤ v := by omega
  have hv2 : v ≤ 12 := by omega
  clear hv
  rcases Nat.lt_or_ge v 10 with h2 | h2
  · refine ⟨_, List.mem_cons_self, List.Forall₂.cons ?_ (List.Forall₂.cons (digit_mem_D _ (by omega)) List.Forall₂.nil)⟩
    rw [show v / 10 % 10 = 0 by omega]; decide
  · refine ⟨_, List.mem_cons_of_mem _ List.mem_cons_self, ?_⟩
    interval_cases v <;> exact List.Forall₂.cons (by decide) (List.Forall₂.cons (by decide) List.Forall₂.nil)

theorem num_fits {t : CTime} (h : Spec.Modern t) {e : List (List Char) × List (List Char)} (hy : Fits (Spec.four t.year.toNat) e.1)
    (hm : Fits (Spec.two t.month.toNat) e.2) (c : Char) :
    Fits (if c = 'Y' then Spec.four t.year.toNat else Spec.two (Spec.part t c).toNat) (shapeNum e c) := by
  have hd := h.valid.date
  have : HB.Spec.monthLength t.year t.month ≤ 31 := by unfold HB.Spec.monthLength; split_ifs <;> norm_num
  have := hd.d1; have := hd.d2
  have := h.valid.h1; have := h.valid.h2; have := h.valid.mi1; have := h.valid.mi2; have := h.valid.s1; have := h.valid.s2
  have e2 : Spec.part t 'd' = t.day := rfl
  have e3 : Spec.part t 'H' = t.hour := rfl
  have e4 : Spec.part t 'M' = t.min := rfl
  have e5 : Spec.part t 'S' = t.sec := rfl
  by_cases hY : c = 'Y'
  · subst hY; exact hy
  rw [if_neg hY]
  unfold shapeNum
  split
  · exact absurd rfl hY
  · exact hm
  · exact two_fits _ 40 _ (by omega) (by norm_num) (by intro k hk; norm_num at hk; interval_cases k <;> decide)
  · exact two_fits _ 30 _ (by omega) (by norm_num) (by intro k hk; norm_num at hk; interval_cases k <;> decide)
  · exact two_fits _ 60 _ (by omega) (by norm_num) (by intro k hk; norm_num at hk; interval_cases k <;> decide)
  · exact two_fits _ 60 _ (by omega) (by norm_num) (by intro k hk; norm_num at hk; interval_cases k <;> decide)
  · exact List.Forall₂.cons (digit_mem_D _ (by omega)) (List.Forall₂.cons (digit_mem_D _ (by omega)) List.Forall₂.nil)

theorem write_fits {t : CTime} (h : Spec.Modern t) : ∃ y ∈ eras, ∀ f, Fits (Spec.write t f) (shape y f) := by
  obtain ⟨y, hy, hf⟩ := year_fits h
  obtain ⟨m, hm, hg⟩ := month_fits h
  refine ⟨(y, m), List.mem_flatMap.2 ⟨y, hy, List.mem_map.2 ⟨m, hm, rfl⟩⟩, fun f => ?_⟩
  induction f with
  | nil => exact List.Forall₂.nil
  | cons i f ih =>
    cases i with
    | num c => exact (num_fits h hf hg c).append ih
    | sp => exact List.Forall₂.cons (List.mem_singleton.2 rfl) ih
    | lit c => exact List.Forall₂.cons (List.mem_singleton.2 rfl) ih

/-- The pattern `q` refuses every modern date written with `p`. -/
def refuses (q p : List Item) : Bool := eras.all fun y => !aMatch 0 q (shape y p)

theorem refuses_sound {t : CTime} (h : Spec.Modern t) {q : String} {p : List Item} (hq : refuses (items q.toList) p = true) :
    parseTm (Spec.write t p) q = none := by
  obtain ⟨y, hy, hf⟩ := write_fits h
  unfold parseTm
  split
  · rfl
  · rename_i tm rest hs
    split
    · rename_i hr
      have h1 := aMatch_sound 0 _ _ _ _ _ _ (hf p) hs hr (Or.inl rfl)
      have h2 := List.all_eq_true.1 hq y hy
      rw [h1] at h2
      cases h2
    · rfl

/-- The two patterns read alike: they differ at most by blanks before fields. -/
def alike (q p : List Item) : Bool := despace q = despace p

theorem alike_sound {t : CTime} (h : FourDigit t) {q : String} {p : List Item} (hq : alike (items q.toList) p = true)
    (hp : tidy p = true) : parseTm (Spec.write t p) q = some (fill t p {}) := by
  have e : strptime (items q.toList) (Spec.write t p) {} = some (fill t p {}, []) := by
    rw [← strptime_despace, of_decide_eq_true hq, strptime_despace]
    have := strptime_write t h p hp [] {}
    rwa [List.append_nil] at this
  unfold parseTm
  rw [e]
  rfl

/-- Reading down the list, the patterns before the one that reads `p` refuse. -/
def found (p : List Item) : List String → Bool
  | [] => false
  | q :: qs => alike (items q.toList) p || (refuses (items q.toList) p && found p qs)

theorem found_sound {t : CTime} (h : Spec.Modern t) {p : List Item} (hp : tidy p = true) (pats : List String)
    (hf : found p pats = true) {α : Type} (g : Tm → α) :
    pats.findSome? (fun q => (parseTm (Spec.write t p) q).map g) = some (g (fill t p {})) := by
  induction pats with
  | nil => cases hf
  | cons q qs ih =>
    rw [List.findSome?_cons]
    by_cases ha : alike (items q.toList) p = true
    · rw [alike_sound h.four ha hp]; rfl
    · rw [found, Bool.or_eq_true, Bool.and_eq_true] at hf
      rcases hf with hf | hf
      · exact absurd hf ha
      · rw [refuses_sound h hf.1]
        exact ih hf.2

theorem refuses_all {t : CTime} (h : Spec.Modern t) {p : List Item} (pats : List String)
    (hf : pats.all (fun q => refuses (items q.toList) p) = true) {α : Type} (g : Tm → α) :
    pats.findSome? (fun q => (parseTm (Spec.write t p) q).map g) = none := by
  rw [List.findSome?_eq_none_iff]
  intro q hq
  rw [refuses_sound h (List.all_eq_true.1 hf q hq)]
  rfl

/-- A pattern that shows the whole date. -/
def dated (p : List Item) : Bool := decide (.num 'Y' ∈ p ∧ .num 'm' ∈ p ∧ .num 'd' ∈ p)

/-- A pattern of the date only. -/
def dateOnly (p : List Item) : Bool := decide (.num 'H' ∉ p ∧ .num 'M' ∉ p ∧ .num 'S' ∉ p)

/-- No NUL character is written. -/
def noNul (p : List Item) : Bool := !p.contains (.lit '\x00')

theorem write_noNul (t : CTime) (p : List Item) (hp : noNul p = true) :
    (Spec.write t p).takeWhile (· != '\x00') = Spec.write t p := by
  have hdig : ∀ k, k < 10 → (Spec.digit k != '\x00') = true := by intro k hk; interval_cases k <;> decide
  rw [List.takeWhile_eq_self_iff]
  have key : ∀ p : List Item, .lit '\x00' ∉ p → ∀ x ∈ Spec.write t p, (x != '\x00') = true := by
    intro p
    induction p with
    | nil => intro _ x hx; cases hx
    | cons i p ih =>
      intro hn x hx
      have hn' : Item.lit '\x00' ∉ p := fun h => hn (List.mem_cons_of_mem _ h)
      cases i with
      | num c =>
        rw [Spec.write, List.mem_append] at hx
        rcases hx with hx | hx
        · split at hx
          · simp only [Spec.four, List.mem_cons, List.not_mem_nil, or_false] at hx
            rcases hx with rfl | rfl | rfl | rfl <;> exact hdig _ (by omega)
          · simp only [Spec.two, List.mem_cons, List.not_mem_nil, or_false] at hx
            rcases hx with rfl | rfl <;> exact hdig _ (by omega)
        · exact ih hn' x hx
      | sp =>
        rw [Spec.write, List.mem_cons] at hx
        rcases hx with rfl | hx
        · decide
        · exact ih hn' x hx
      | lit c =>
        rw [Spec.write, List.mem_cons] at hx
        rcases hx with rfl | hx
        · rw [bne_iff_ne]; rintro rfl; exact hn List.mem_cons_self
        · exact ih hn' x hx
  apply key
  intro hm
  unfold noNul at hp
  rw [List.contains_iff_mem.2 hm] at hp
  cases hp

/-- Everything the proof needs of a way of writing `p` for a format. -/
def goodWay (fmt : TimeFormat) (pat : String) : Bool :=
  let p := items pat.toList
  tidy p && dated p && noNul p &&
  match fmt with
  | .ISOdate | .YYYY_MM_DD => dateOnly p && found p patsYmd
  | .ISOdateTime | .YYYY_MM_DD_hh_mm | .YYYY_MM_DD_hh_mm_ss => found p patsYmdHms
  | .DD_MM_YYYY => dateOnly p && found p patsDmy
  | .DD_MM_YYYY_hh_mm | .DD_MM_YYYY_hh_mm_ss => found p patsDmyHms
  | .guess => found p patsGuessTime ||
      (dateOnly p && patsGuessTime.all (fun q => refuses (items q.toList) p) && found p patsGuessDate)

set_option maxHeartbeats 4000000 in
theorem goodWay_all (fmt : TimeFormat) : (Spec.ways fmt).all (goodWay fmt) = true := by
  cases fmt <;> decide +kernel

end HB.DateText
