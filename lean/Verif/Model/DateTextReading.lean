import Verif.Model.DateTextWays
import Mathlib.Data.List.Nodup

/-!
# Accepted texts follow a pattern, and years that are too early are refused
-/

namespace HB.DateText

theorem digit_of_digitVal {c : Char} {k : ℕ} (h : digitVal c = some k) : k < 10 ∧ c = Spec.digit k := by
  unfold digitVal at h
  split at h
  · rename_i hc
    have e0 : '0'.toNat = 48 := by decide
    have e9 : '9'.toNat = 57 := by decide
    rw [e0, e9] at hc
    rw [e0] at h
    cases h
    refine ⟨by omega, ?_⟩
    unfold Spec.digit
    rw [show 48 + (c.toNat - 48) = c.toNat by omega, Char.ofNat_toNat]
  · cases h

theorem blank_iff (c : Char) : isSpace c = true ↔ Spec.Blank c := by
  unfold isSpace Spec.Blank
  simp only [Bool.or_eq_true, beq_iff_eq, List.mem_cons, List.not_mem_nil, or_false]
  tauto

theorem skip_split (s : List Char) : ∃ bs, (∀ b ∈ bs, Spec.Blank b) ∧ s = bs ++ s.dropWhile isSpace :=
  ⟨s.takeWhile isSpace, fun b hb => (blank_iff b).1 (List.mem_takeWhile_imp hb), (List.takeWhile_append_dropWhile).symm⟩

theorem moreDigits_decimal (hi : ℕ) : ∀ (n v : ℕ) (s l : List Char), Spec.Decimal l v →
    ∃ l', s = l' ++ (moreDigits hi n v s).2 ∧ Spec.Decimal (l ++ l') (moreDigits hi n v s).1 ∧ l'.length ≤ n
  | 0, v, s, l, h => ⟨[], rfl, by simpa [moreDigits] using h, le_rfl⟩
  | n + 1, v, [], l, h => ⟨[], rfl, by simpa [moreDigits] using h, Nat.zero_le _⟩
  | n + 1, v, c :: s, l, h => by
    rw [moreDigits]
    split
    · split
      · rename_i k hk
        obtain ⟨hk10, rfl⟩ := digit_of_digitVal hk
        obtain ⟨l', h1, h2, h3⟩ := moreDigits_decimal hi n (v * 10 + k) s (l ++ [Spec.digit k]) (.more l v k hk10 h)
        refine ⟨Spec.digit k :: l', ?_, ?_, ?_⟩
        · rw [List.cons_append, ← h1]
        · simpa using h2
        · simpa using h3
      · exact ⟨[], rfl, by simpa using h, Nat.zero_le _⟩
    · exact ⟨[], rfl, by simpa using h, Nat.zero_le _⟩

theorem getNumber_reading {lo hi n v : ℕ} {s s' : List Char} (hn : 1 ≤ n) (h : getNumber lo hi n s = some (v, s')) :
    ∃ bs ds, (∀ b ∈ bs, Spec.Blank b) ∧ s = bs ++ ds ++ s' ∧ Spec.Decimal ds v ∧ ds.length ≤ n ∧ lo ≤ v ∧ v ≤ hi := by
  obtain ⟨bs, hb, hs⟩ := skip_split s
  unfold getNumber at h
  generalize s.dropWhile isSpace = w at h hs
  cases w with
  | nil => cases h
  | cons c r =>
    simp only at h
    split at h
    · cases h
    · rename_i k hk
      obtain ⟨hk10, rfl⟩ := digit_of_digitVal hk
      split at h
      · rename_i hr
        obtain ⟨l', h1, h2, h3⟩ := moreDigits_decimal hi (n - 1) k r [Spec.digit k] (.one k hk10)
        have e : moreDigits hi (n - 1) k r = (v, s') := Option.some.inj h
        rw [e] at h1 h2 hr
        refine ⟨bs, Spec.digit k :: l', hb, ?_, h2, ?_, hr⟩
        · rw [hs, h1]; simp
        · simp only [List.length_cons]; omega
      · cases h

theorem field_range {c : Char} {lo hi n : ℕ} (h : field c = some (lo, hi, n)) : Spec.range c = (lo, hi, n) ∧ 1 ≤ n := by
  unfold field at h
  split at h <;> first | (cases h; exact ⟨rfl, by norm_num⟩) | cases h

theorem strptime_reading {f : List Item} {s : List Char} {tm tm' : Tm} {rest : List Char}
    (h : strptime f s tm = some (tm', rest)) (hr : (rest.dropWhile isSpace).isEmpty = true) :
    ∃ r, Spec.Reading f s r ∧ r.map (·.1) = nums f ∧ tm' = r.foldl (fun tm p => tm.set p.1 p.2) tm := by
  induction f generalizing s tm with
  | nil =>
    rw [strptime] at h; cases h
    obtain ⟨bs, hb, hs⟩ := skip_split rest
    rw [List.isEmpty_iff.1 hr, List.append_nil] at hs
    exact ⟨[], .done rest (hs ▸ hb), rfl, rfl⟩
  | cons i f ih =>
    cases i with
    | num c =>
      rw [strptime] at h
      split at h
      · cases h
      · rename_i lo hi n hf
        split at h
        · cases h
        · rename_i v s' hn
          obtain ⟨r, h1, h2, h3⟩ := ih h
          obtain ⟨hrg, hn1⟩ := field_range hf
          obtain ⟨bs, ds, b1, b2, b3, b4, b5, b6⟩ := getNumber_reading hn1 hn
          refine ⟨(c, v) :: r, ?_, ?_, ?_⟩
          · rw [b2]
            exact .num c f bs ds s' v r b1 b3 (by rw [hrg]; exact b4) (by rw [hrg]; exact b5) (by rw [hrg]; exact b6) h1
          · simp [nums, h2]
          · exact h3
    | sp =>
      rw [strptime] at h
      obtain ⟨r, h1, h2, h3⟩ := ih h
      obtain ⟨bs, hb, hs⟩ := skip_split s
      exact ⟨r, by rw [hs]; exact .blank f bs _ r hb h1, h2, h3⟩
    | lit c =>
      cases s with
      | nil => rw [strptime] at h; cases h
      | cons x s =>
        rw [strptime] at h
        split at h
        · rename_i hx
          subst hx
          obtain ⟨r, h1, h2, h3⟩ := ih h
          exact ⟨r, .lit x f s r h1, h2, h3⟩
        · cases h

/-- The value of a field of `tm`. -/
def Tm.get (tm : Tm) : Char → ℕ
  | 'Y' => tm.year | 'm' => tm.month | 'd' => tm.day | 'H' => tm.hour | 'M' => tm.min | 'S' => tm.sec | _ => 0

theorem Tm.get_set (tm : Tm) (c : Char) (v : ℕ) (hc : (field c).isSome) : (tm.set c v).get c = v := by
  unfold field at hc
  split at hc <;> first | rfl | cases hc

theorem Tm.get_set_ne (tm : Tm) (c k : Char) (v : ℕ) (hc : k ≠ c) : (tm.set c v).get k = tm.get k := by
  unfold Tm.set
  split <;> (unfold Tm.get; split <;> first | rfl | exact absurd rfl hc)

theorem foldl_get (r : List (Char × ℕ)) (hr : (r.map (·.1)).Nodup) (hk : ∀ c ∈ r.map (·.1), (field c).isSome) (tm : Tm) (k : Char) :
    (r.foldl (fun tm p => tm.set p.1 p.2) tm).get k = (r.lookup k).getD (tm.get k) := by
  induction r generalizing tm with
  | nil => rfl
  | cons p r ih =>
    obtain ⟨c, v⟩ := p
    rw [List.map_cons, List.nodup_cons] at hr
    rw [List.foldl_cons, ih hr.2 (fun c hc => hk c (List.mem_cons_of_mem _ hc)), List.lookup_cons]
    by_cases hc : k = c
    · subst hc
      have : r.lookup k = none := by
        rw [List.lookup_eq_none_iff]
        intro p hp
        simp only [bne_iff_ne, ne_eq]
        rintro rfl
        exact hr.1 (List.mem_map.2 ⟨p, hp, rfl⟩)
      rw [this]
      simp [Tm.get_set tm k v (hk k List.mem_cons_self)]
    · have : (k == c) = false := by simpa using hc
      rw [this]
      simp only
      rw [Tm.get_set_ne _ _ _ _ hc]

theorem mem_nums (c : Char) (f : List Item) : c ∈ nums f ↔ .num c ∈ f := by
  induction f with
  | nil => simp [nums]
  | cons i f ih => cases i <;> simp [nums, ih]

/-- Every field once. -/
def once (p : List Item) : Bool := decide (nums p).Nodup && (nums p).all fun c => (field c).isSome

theorem parseTm_reading {s : List Char} {q : String} {tm : Tm} (h : parseTm s q = some tm)
    (ho : once (items q.toList) = true) (hd : dated (items q.toList) = true) :
    ∃ r, Spec.Reading (items q.toList) s r ∧ r.map (·.1) = nums (items q.toList) ∧
      Spec.fields r = ⟨tm.year, tm.month, tm.day, tm.hour, tm.min, tm.sec⟩ := by
  unfold parseTm at h
  split at h
  · cases h
  · rename_i tm' rest hs
    split at h
    · rename_i hr
      cases h
      obtain ⟨r, h1, h2, rfl⟩ := strptime_reading hs hr
      rw [once, Bool.and_eq_true] at ho
      have hn := of_decide_eq_true ho.1
      have hk := List.all_eq_true.1 ho.2
      rw [← h2] at hn hk
      have g := foldl_get r hn hk {}
      obtain ⟨d1, d2, d3⟩ := of_decide_eq_true hd
      have some_of : ∀ c, .num c ∈ items q.toList → ∀ a b : ℕ, (r.lookup c).getD a = (r.lookup c).getD b := by
        intro c hc a b
        have hm := (mem_nums c _).2 hc
        rw [← h2] at hm
        cases hl : r.lookup c with
        | some v => rfl
        | none =>
          rw [List.lookup_eq_none_iff] at hl
          obtain ⟨p, hp, rfl⟩ := List.mem_map.1 hm
          have := hl p hp
          simp at this
      refine ⟨r, h1, h2, ?_⟩
      have gY := g 'Y'; have gm := g 'm'; have gd := g 'd'; have gH := g 'H'; have gM := g 'M'; have gS := g 'S'
      rw [some_of 'Y' d1 _ 0] at gY
      rw [some_of 'm' d2 _ 0] at gm
      rw [some_of 'd' d3 _ 0] at gd
      unfold Spec.fields
      dsimp only
      rw [← gY, ← gm, ← gd]
      have eH : ((r.lookup 'H').getD 0 : ℕ) = (r.foldl (fun tm p => tm.set p.1 p.2) ({} : Tm)).hour := gH.symm
      have eM : ((r.lookup 'M').getD 0 : ℕ) = (r.foldl (fun tm p => tm.set p.1 p.2) ({} : Tm)).min := gM.symm
      have eS : ((r.lookup 'S').getD 0 : ℕ) = (r.foldl (fun tm p => tm.set p.1 p.2) ({} : Tm)).sec := gS.symm
      rw [eH, eM, eS]
      rfl
    · cases h

theorem reading_range {f : List Item} {s : List Char} {r : List (Char × ℕ)} (h : Spec.Reading f s r) :
    ∀ p ∈ r, (Spec.range p.1).1 ≤ p.2 ∧ p.2 ≤ (Spec.range p.1).2.1 := by
  induction h with
  | done => intro p hp; cases hp
  | num c f bs ds s v r _ _ _ h1 h2 _ ih =>
    intro p hp
    rcases List.mem_cons.1 hp with rfl | hp
    · exact ⟨h1, h2⟩
    · exact ih p hp
  | blank f bs s r _ _ ih => exact ih
  | lit c f s r _ ih => exact ih

theorem reading_lookup {f : List Item} {s : List Char} {r : List (Char × ℕ)} (h : Spec.Reading f s r) (c : Char) :
    (r.lookup c).getD 0 ≤ (Spec.range c).2.1 := by
  cases hl : r.lookup c with
  | none => exact Nat.zero_le _
  | some v =>
    obtain ⟨l1, l2, rfl, _⟩ := List.lookup_eq_some_iff.1 hl
    exact (reading_range h (c, v) (by simp)).2

end HB.DateText
