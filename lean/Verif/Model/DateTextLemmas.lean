import Verif.Spec.DateText

/-!
# Lemmas on reading dates

`aMatch` is an abstract run of the parser on a *shape* (a list of sets of characters): if it says no, the parser refuses
every text of that shape (`aMatch_sound`).  It is what shows that the patterns tried before the right one do not match.
-/

namespace HB.DateText

set_option linter.unusedSectionVars false

theorem digitVal_digit (k : ℕ) (h : k < 10) : digitVal (Spec.digit k) = some k := by
  interval_cases k <;> decide

theorem isSpace_digit (k : ℕ) (h : k < 10) : isSpace (Spec.digit k) = false := by
  interval_cases k <;> decide

/-! ## Fields written on a fixed number of digits -/

theorem getNumber_two (lo hi v : ℕ) (r : List Char) (h1 : lo ≤ v) (h2 : v ≤ hi) (h3 : hi < 100) :
    getNumber lo hi 2 (Spec.two v ++ r) = some (v, r) := by
  have e1 := digitVal_digit (v / 10 % 10) (by omega)
  have e2 := digitVal_digit (v % 10) (by omega)
  have e3 := isSpace_digit (v / 10 % 10) (by omega)
  unfold getNumber Spec.two
  simp only [List.cons_append, List.nil_append, List.dropWhile_cons, e3, Bool.false_eq_true, if_false, e1]
  simp only [moreDigits, e2]
  rw [if_pos (show v / 10 % 10 * 10 ≤ hi by omega)]
  simp only [show v / 10 % 10 * 10 + v % 10 = v by omega]
  rw [if_pos ⟨h1, h2⟩]

theorem getNumber_four (v : ℕ) (r : List Char) (h2 : v ≤ 9999) :
    getNumber 0 9999 4 (Spec.four v ++ r) = some (v, r) := by
  have e1 := digitVal_digit (v / 1000 % 10) (by omega)
  have e2 := digitVal_digit (v / 100 % 10) (by omega)
  have e3 := digitVal_digit (v / 10 % 10) (by omega)
  have e4 := digitVal_digit (v % 10) (by omega)
  have e0 := isSpace_digit (v / 1000 % 10) (by omega)
  unfold getNumber Spec.four
  simp only [List.cons_append, List.nil_append, List.dropWhile_cons, e0, Bool.false_eq_true, if_false, e1]
  simp only [moreDigits, e2, e3, e4]
  rw [if_pos (show v / 1000 % 10 * 10 ≤ 9999 by omega), if_pos (show (v / 1000 % 10 * 10 + v / 100 % 10) * 10 ≤ 9999 by omega),
    if_pos (show ((v / 1000 % 10 * 10 + v / 100 % 10) * 10 + v / 10 % 10) * 10 ≤ 9999 by omega)]
  simp only [show ((v / 1000 % 10 * 10 + v / 100 % 10) * 10 + v / 10 % 10) * 10 + v % 10 = v by omega]
  rw [if_pos ⟨Nat.zero_le _, h2⟩]

theorem getNumber_skip (lo hi n : ℕ) (s : List Char) : getNumber lo hi n (s.dropWhile isSpace) = getNumber lo hi n s := by
  unfold getNumber
  have : ∀ s : List Char, (s.dropWhile isSpace).dropWhile isSpace = s.dropWhile isSpace := by
    intro s
    induction s with
    | nil => rfl
    | cons c s ih =>
      rw [List.dropWhile_cons]
      split
      · exact ih
      · rename_i h; rw [List.dropWhile_cons, if_neg h]
  rw [this]

/-! ## Blanks before a field are redundant in a pattern -/

/-- The pattern without the blanks that precede a field. -/
def despace : List Item → List Item
  | [] => []
  | .sp :: f => match despace f with
    | .num c :: g => .num c :: g
    | g => .sp :: g
  | .num c :: f => .num c :: despace f
  | .lit c :: f => .lit c :: despace f

theorem strptime_despace (f : List Item) (s : List Char) (tm : Tm) : strptime (despace f) s tm = strptime f s tm := by
  induction f generalizing s tm with
  | nil => rfl
  | cons i f ih =>
    cases i with
    | num c =>
      simp only [despace, strptime]
      split
      · rfl
      · split
        · rfl
        · exact ih _ _
    | lit c =>
      simp only [despace, strptime]
      split
      · rfl
      · split
        · exact ih _ _
        · rfl
    | sp =>
      rw [strptime, ← ih]
      rw [despace]
      split
      · rename_i c g hg
        rw [hg]
        simp only [strptime, getNumber_skip]
      · rename_i g _
        rw [strptime]

/-! ## Reading what was written -/

/-- A pattern whose blanks are followed by fields, with known fields only and no blank as an ordinary character. -/
def tidy : List Item → Bool
  | [] => true
  | .sp :: f => (match f with | .num _ :: _ => true | _ => false) && tidy f
  | .num c :: f => (field c).isSome && tidy f
  | .lit _ :: f => tidy f

/-- The fields of `tm` after reading the pattern from a text of `t`. -/
def fill (t : CTime) : List Item → Tm → Tm
  | [], tm => tm
  | .num c :: f, tm => fill t f (tm.set c (Spec.part t c).toNat)
  | .sp :: f, tm => fill t f tm
  | .lit _ :: f, tm => fill t f tm

/-- A date-time whose year has four digits. -/
structure FourDigit (t : CTime) : Prop where
  valid : HB.Spec.DateTime t
  y0 : 0 ≤ t.year
  y1 : t.year ≤ 9999

theorem part_range {t : CTime} (h : FourDigit t) {c : Char} {lo hi n : ℕ} (hf : field c = some (lo, hi, n)) (hY : c ≠ 'Y') :
    lo ≤ (Spec.part t c).toNat ∧ (Spec.part t c).toNat ≤ hi ∧ hi < 100 ∧ n = 2 := by
  have hd := h.valid.date
  have : Spec.monthLength t.year t.month ≤ 31 := by unfold Spec.monthLength; split_ifs <;> norm_num
  have := hd.m1; have := hd.m2; have := hd.d1; have := hd.d2
  have := h.valid.h1; have := h.valid.h2; have := h.valid.mi1; have := h.valid.mi2; have := h.valid.s1; have := h.valid.s2
  have e1 : Spec.part t 'm' = t.month := rfl
  have e2 : Spec.part t 'd' = t.day := rfl
  have e3 : Spec.part t 'H' = t.hour := rfl
  have e4 : Spec.part t 'M' = t.min := rfl
  have e5 : Spec.part t 'S' = t.sec := rfl
  unfold field at hf
  split at hf <;> first | (exact absurd rfl hY) | (cases hf; omega) | (cases hf; done)

theorem strptime_num (t : CTime) (h : FourDigit t) (c : Char) (hc : (field c).isSome) (f : List Item) (r : List Char) (tm : Tm) :
    strptime (.num c :: f) ((if c = 'Y' then Spec.four t.year.toNat else Spec.two (Spec.part t c).toNat) ++ r) tm =
      strptime f r (tm.set c (Spec.part t c).toNat) := by
  obtain ⟨⟨lo, hi, n⟩, hf⟩ := Option.isSome_iff_exists.1 hc
  rw [strptime, hf]
  dsimp only
  by_cases hY : c = 'Y'
  · subst hY
    have : field 'Y' = some (0, 9999, 4) := rfl
    rw [this] at hf; cases hf
    rw [if_pos rfl, getNumber_four _ _ (by have := h.y1; omega)]
    rfl
  · obtain ⟨h1, h2, h3, rfl⟩ := part_range h hf hY
    rw [if_neg hY, getNumber_two _ _ _ _ h1 h2 h3]

/-- The parser reads back what was written. -/
theorem strptime_write (t : CTime) (h : FourDigit t) (f : List Item) (hf : tidy f = true) (r : List Char) (tm : Tm) :
    strptime f (Spec.write t f ++ r) tm = some (fill t f tm, r) := by
  induction f generalizing tm with
  | nil => rfl
  | cons i f ih =>
    cases i with
    | num c =>
      rw [tidy, Bool.and_eq_true] at hf
      rw [Spec.write, List.append_assoc, strptime_num t h c hf.1, ih hf.2]
      rfl
    | lit c =>
      rw [tidy] at hf
      simp only [Spec.write, strptime, List.cons_append, if_true]
      exact ih hf _
    | sp =>
      cases f with
      | nil => cases hf
      | cons j g =>
        cases j with
        | sp => cases hf
        | lit _ => cases hf
        | num c =>
          have hd := ih hf tm
          rw [Spec.write, strptime, List.cons_append, List.dropWhile_cons, if_pos (by decide)]
          rw [strptime] at hd ⊢
          simp only [getNumber_skip]
          exact hd

theorem fill_year (t : CTime) (f : List Item) (tm : Tm) : (fill t f tm).year = if .num 'Y' ∈ f then t.year.toNat else tm.year := by
  induction f generalizing tm with
  | nil => rfl
  | cons i f ih =>
    cases i with
    | num c =>
      rw [fill, ih]
      by_cases hc : c = 'Y'
      · subst hc; simp [Tm.set, Spec.part]
      · have : (tm.set c (Spec.part t c).toNat).year = tm.year := by unfold Tm.set; split <;> first | rfl | exact absurd rfl hc
        rw [this]
        simp [Ne.symm hc]
    | _ => rw [fill, ih]; simp

theorem fill_month (t : CTime) (f : List Item) (tm : Tm) : (fill t f tm).month = if .num 'm' ∈ f then t.month.toNat else tm.month := by
  induction f generalizing tm with
  | nil => rfl
  | cons i f ih =>
    cases i with
    | num c =>
      rw [fill, ih]
      by_cases hc : c = 'm'
      · subst hc; simp [Tm.set, Spec.part]
      · have : (tm.set c (Spec.part t c).toNat).month = tm.month := by unfold Tm.set; split <;> first | rfl | exact absurd rfl hc
        rw [this]
        simp [Ne.symm hc]
    | _ => rw [fill, ih]; simp

theorem fill_day (t : CTime) (f : List Item) (tm : Tm) : (fill t f tm).day = if .num 'd' ∈ f then t.day.toNat else tm.day := by
  induction f generalizing tm with
  | nil => rfl
  | cons i f ih =>
    cases i with
    | num c =>
      rw [fill, ih]
      by_cases hc : c = 'd'
      · subst hc; simp [Tm.set, Spec.part]
      · have : (tm.set c (Spec.part t c).toNat).day = tm.day := by unfold Tm.set; split <;> first | rfl | exact absurd rfl hc
        rw [this]
        simp [Ne.symm hc]
    | _ => rw [fill, ih]; simp

theorem fill_hour (t : CTime) (f : List Item) (tm : Tm) : (fill t f tm).hour = if .num 'H' ∈ f then t.hour.toNat else tm.hour := by
  induction f generalizing tm with
  | nil => rfl
  | cons i f ih =>
    cases i with
    | num c =>
      rw [fill, ih]
      by_cases hc : c = 'H'
      · subst hc; simp [Tm.set, Spec.part]
      · have : (tm.set c (Spec.part t c).toNat).hour = tm.hour := by unfold Tm.set; split <;> first | rfl | exact absurd rfl hc
        rw [this]
        simp [Ne.symm hc]
    | _ => rw [fill, ih]; simp

theorem fill_min (t : CTime) (f : List Item) (tm : Tm) : (fill t f tm).min = if .num 'M' ∈ f then t.min.toNat else tm.min := by
  induction f generalizing tm with
  | nil => rfl
  | cons i f ih =>
    cases i with
    | num c =>
      rw [fill, ih]
      by_cases hc : c = 'M'
      · subst hc; simp [Tm.set, Spec.part]
      · have : (tm.set c (Spec.part t c).toNat).min = tm.min := by unfold Tm.set; split <;> first | rfl | exact absurd rfl hc
        rw [this]
        simp [Ne.symm hc]
    | _ => rw [fill, ih]; simp

theorem fill_sec (t : CTime) (f : List Item) (tm : Tm) : (fill t f tm).sec = if .num 'S' ∈ f then t.sec.toNat else tm.sec := by
  induction f generalizing tm with
  | nil => rfl
  | cons i f ih =>
    cases i with
    | num c =>
      rw [fill, ih]
      by_cases hc : c = 'S'
      · subst hc; simp [Tm.set, Spec.part]
      · have : (tm.set c (Spec.part t c).toNat).sec = tm.sec := by unfold Tm.set; split <;> first | rfl | exact absurd rfl hc
        rw [this]
        simp [Ne.symm hc]
    | _ => rw [fill, ih]; simp

/-! ## Abstract runs on shapes -/

/-- Blanks skipped in a shape; `none` when a position may or may not be a blank. -/
def aSkip : List (List Char) → Option (List (List Char))
  | [] => some []
  | S :: a => if S.all isSpace then aSkip a else if S.all (!isSpace ·) then some (S :: a) else none

/-- Least digit of a set. -/
def least (ks : List ℕ) : ℕ := ks.foldr min 9

/-- Greatest digit of a set. -/
def greatest (ks : List ℕ) : ℕ := ks.foldr max 0

theorem least_le {ks : List ℕ} {k : ℕ} (h : k ∈ ks) : least ks ≤ k := by
  induction ks with
  | nil => cases h
  | cons c ks ih =>
    rw [least, List.foldr_cons]
    rcases List.mem_cons.1 h with rfl | h
    · exact min_le_left _ _
    · exact (min_le_right _ _).trans (ih h)

theorem le_greatest {ks : List ℕ} {k : ℕ} (h : k ∈ ks) : k ≤ greatest ks := by
  induction ks with
  | nil => cases h
  | cons c ks ih =>
    rw [greatest, List.foldr_cons]
    rcases List.mem_cons.1 h with rfl | h
    · exact le_max_left _ _
    · exact (ih h).trans (le_max_right _ _)

/-- Possible outcomes of `moreDigits` from a value between `a` and `b`: the bounds of the value and the rest. -/
def aMore (hi : ℕ) : ℕ → ℕ → ℕ → List (List Char) → List (ℕ × ℕ × List (List Char))
  | 0, a, b, r => [(a, b, r)]
  | _ + 1, a, b, [] => [(a, b, [])]
  | n + 1, a, b, S :: r =>
    (if S.all (fun c => (digitVal c).isSome) then
      (if b * 10 ≤ hi then [] else [(max a (hi / 10 + 1), b, S :: r)])
    else [(a, b, S :: r)]) ++
    (if a * 10 ≤ hi && !(S.filterMap digitVal).isEmpty then
      aMore hi n (a * 10 + least (S.filterMap digitVal)) (min b (hi / 10) * 10 + greatest (S.filterMap digitVal)) r
    else [])

/-- Possible rests after a number. -/
def aNumber (lo hi n : ℕ) : List (List Char) → List (List (List Char))
  | [] => []
  | S :: r =>
    if (S.filterMap digitVal).isEmpty then []
    else ((aMore hi (n - 1) (least (S.filterMap digitVal)) (greatest (S.filterMap digitVal)) r).filter
      (fun p => p.1 ≤ hi && lo ≤ p.2.1)).map (·.2.2)

/-- May the pattern match a text of the shape, with a year not before `L`? -/
def aMatch (L : ℕ) : List Item → List (List Char) → Bool
  | [], a => match aSkip a with
    | some (_ :: _) => false
    | _ => true
  | .num c :: f, a =>
    match field c with
    | none => false
    | some (lo, hi, n) =>
      match aSkip a with
      | none => true
      | some a' => (aNumber (if c = 'Y' then L else lo) hi n a').any (aMatch L f)
  | .sp :: f, a =>
    match aSkip a with
    | none => true
    | some a' => aMatch L f a'
  | .lit c :: f, a =>
    match a with
    | [] => false
    | S :: a' => S.contains c && aMatch L f a'

/-- The fields of a pattern. -/
def nums : List Item → List Char
  | [] => []
  | .num c :: f => c :: nums f
  | .sp :: f => nums f
  | .lit _ :: f => nums f

/-- A text of a shape. -/
def Fits (s : List Char) (a : List (List Char)) : Prop := List.Forall₂ (fun c S => c ∈ S) s a

theorem aSkip_sound {s : List Char} {a a' : List (List Char)} (h : Fits s a) (ha : aSkip a = some a') :
    Fits (s.dropWhile isSpace) a' := by
  induction h with
  | nil => cases ha; exact List.Forall₂.nil
  | @cons c S s a hc ht ih =>
    rw [aSkip] at ha
    rw [List.dropWhile_cons]
    split at ha
    · rename_i hS
      rw [if_pos (List.all_eq_true.1 hS _ hc)]
      exact ih ha
    · split at ha
      · rename_i hS
        have := List.all_eq_true.1 hS _ hc
        rw [if_neg (by simpa using this)]
        cases ha
        exact List.Forall₂.cons hc ht
      · cases ha

theorem aMore_sound (hi : ℕ) : ∀ (n a b v : ℕ) (s : List Char) (r : List (List Char)), a ≤ v → v ≤ b → Fits s r →
    ∃ p ∈ aMore hi n a b r, p.1 ≤ (moreDigits hi n v s).1 ∧ (moreDigits hi n v s).1 ≤ p.2.1 ∧ Fits (moreDigits hi n v s).2 p.2.2
  | 0, a, b, v, s, r, ha, hb, hs => ⟨(a, b, r), by simp [aMore], ha, hb, hs⟩
  | n + 1, a, b, v, s, r, ha, hb, hs => by
    cases hs with
    | nil => exact ⟨(a, b, []), by simp [aMore], ha, hb, List.Forall₂.nil⟩
    | @cons c S s r hc ht =>
      rw [aMore, moreDigits]
      by_cases h10 : v * 10 ≤ hi
      · rw [if_pos h10]
        cases hk : digitVal c with
        | some k =>
          dsimp only
          have hm : k ∈ S.filterMap digitVal := List.mem_filterMap.2 ⟨c, hc, hk⟩
          have h1 := least_le hm
          have h2 := le_greatest hm
          have h3 : v ≤ min b (hi / 10) := le_min hb (by omega)
          obtain ⟨p, hp, p1, p2, p3⟩ := aMore_sound hi n (a * 10 + least (S.filterMap digitVal))
            (min b (hi / 10) * 10 + greatest (S.filterMap digitVal)) (v * 10 + k) s r (by omega) (by omega) ht
          refine ⟨p, List.mem_append_right _ ?_, p1, p2, p3⟩
          rw [if_pos]
          · exact hp
          · rw [Bool.and_eq_true, decide_eq_true_eq, Bool.not_eq_true', ← Bool.not_eq_true, List.isEmpty_iff]
            exact ⟨by omega, List.ne_nil_of_mem hm⟩
        | none =>
          dsimp only
          have hall : ¬ (S.all (fun c => (digitVal c).isSome) = true) := by
            intro h
            have := List.all_eq_true.1 h _ hc
            rw [hk] at this
            cases this
          refine ⟨(a, b, S :: r), List.mem_append_left _ ?_, ha, hb, List.Forall₂.cons hc ht⟩
          rw [if_neg hall]
          exact List.mem_singleton.2 rfl
      · rw [if_neg h10]
        by_cases hall : S.all (fun c => (digitVal c).isSome) = true
        · refine ⟨(max a (hi / 10 + 1), b, S :: r), List.mem_append_left _ ?_, max_le ha (by omega), hb, List.Forall₂.cons hc ht⟩
          rw [if_pos hall, if_neg (by omega)]
          exact List.mem_singleton.2 rfl
        · refine ⟨(a, b, S :: r), List.mem_append_left _ ?_, ha, hb, List.Forall₂.cons hc ht⟩
          rw [if_neg hall]
          exact List.mem_singleton.2 rfl

theorem aNumber_sound {lo hi n v : ℕ} {s s' : List Char} {a a' : List (List Char)} (h : Fits s a) (ha : aSkip a = some a')
    (hn : getNumber lo hi n s = some (v, s')) : ∃ r ∈ aNumber lo hi n a', Fits s' r := by
  have hf := aSkip_sound h ha
  unfold getNumber at hn
  generalize s.dropWhile isSpace = w at hn hf
  cases hf with
  | nil => cases hn
  | @cons c S w a hc ht =>
    simp only at hn
    split at hn
    · cases hn
    · rename_i k hk
      split at hn
      · rename_i hr
        have hm : k ∈ S.filterMap digitVal := List.mem_filterMap.2 ⟨c, hc, hk⟩
        obtain ⟨p, hp, h1, h2, h3⟩ := aMore_sound hi (n - 1) _ _ k w a (least_le hm) (le_greatest hm) ht
        have e : moreDigits hi (n - 1) k w = (v, s') := Option.some.inj hn
        rw [e] at h1 h2 h3 hr
        dsimp only at h1 h2 h3 hr
        refine ⟨p.2.2, ?_, h3⟩
        rw [aNumber, if_neg (by rw [List.isEmpty_iff]; exact List.ne_nil_of_mem hm)]
        refine List.mem_map.2 ⟨p, List.mem_filter.2 ⟨hp, ?_⟩, rfl⟩
        rw [Bool.and_eq_true, decide_eq_true_eq, decide_eq_true_eq]
        omega
      · cases hn

theorem strptime_year {f : List Item} {s : List Char} {tm tm' : Tm} {rest : List Char}
    (h : strptime f s tm = some (tm', rest)) (hY : 'Y' ∉ nums f) : tm'.year = tm.year := by
  induction f generalizing s tm with
  | nil => rw [strptime] at h; cases h; rfl
  | cons i f ih =>
    cases i with
    | num c =>
      rw [nums, List.mem_cons, not_or] at hY
      rw [strptime] at h
      split at h
      · cases h
      · split at h
        · cases h
        · rw [ih h hY.2]
          unfold Tm.set
          split <;> first | rfl | exact absurd rfl hY.1
    | sp => rw [strptime] at h; exact ih h hY
    | lit c =>
      cases s with
      | nil => rw [strptime] at h; cases h
      | cons x s =>
        rw [strptime] at h
        split at h
        · exact ih h hY
        · cases h

/-- If the abstract run says no, the parser refuses every text of the shape, or reads a year before `L`. -/
theorem aMatch_sound (L : ℕ) (f : List Item) (s : List Char) (a : List (List Char)) (tm tm' : Tm) (rest : List Char) (h : Fits s a)
    (hs : strptime f s tm = some (tm', rest)) (hr : (rest.dropWhile isSpace).isEmpty = true)
    (hL : L = 0 ∨ L ≤ tm'.year ∧ (nums f).Nodup) : aMatch L f a = true := by
  induction f generalizing s a tm with
  | nil =>
    rw [strptime] at hs; cases hs
    rw [aMatch]
    split
    · rename_i S a' ha
      have := aSkip_sound h ha
      rw [List.isEmpty_iff.1 hr] at this
      cases this
    · rfl
  | cons i f ih =>
    cases i with
    | num c =>
      rw [strptime] at hs
      rw [aMatch]
      split at hs
      · cases hs
      · rename_i lo hi n hf
        rw [hf]
        dsimp only
        split at hs
        · cases hs
        · rename_i v s' hn
          have hL' : L = 0 ∨ L ≤ tm'.year ∧ (nums f).Nodup := hL.imp_right fun h => ⟨h.1, (List.nodup_cons.1 h.2).2⟩
          have hn' : getNumber (if c = 'Y' then L else lo) hi n s = some (v, s') := by
            split
            · rename_i hc
              subst hc
              have hv : L ≤ v := by
                rcases hL with rfl | ⟨h1, h2⟩
                · exact Nat.zero_le _
                · have := strptime_year hs (List.nodup_cons.1 h2).1
                  rw [this] at h1
                  exact h1
              unfold getNumber at hn ⊢
              split at hn
              · cases hn
              · split at hn
                · cases hn
                · dsimp only at hn
                  split at hn
                  · rename_i k hk hr
                    have e := Option.some.inj hn
                    rw [e] at hr
                    dsimp only
                    rw [e, if_pos ⟨hv, hr.2⟩]
                  · cases hn
            · exact hn
          split
          · rfl
          · rename_i a' ha
            obtain ⟨r, hr1, hr2⟩ := aNumber_sound h ha hn'
            exact List.any_eq_true.2 ⟨r, hr1, ih _ _ _ hr2 hs hL'⟩
    | sp =>
      rw [strptime] at hs
      rw [aMatch]
      split
      · rfl
      · rename_i a' ha
        exact ih _ _ _ (aSkip_sound h ha) hs hL
    | lit c =>
      cases h with
      | nil => rw [strptime] at hs; cases hs
      | @cons x S s a hc ht =>
        rw [strptime] at hs
        rw [aMatch]
        split at hs
        · rename_i hx
          subst hx
          rw [ih _ _ _ ht hs hL, Bool.and_true]
          exact List.contains_iff_mem.2 hc
        · cases hs

end HB.DateText
