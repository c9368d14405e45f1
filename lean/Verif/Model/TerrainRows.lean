import Verif.Model.TerrainLemmas
import Mathlib.Algebra.Order.BigOperators.Ring.List
import Mathlib.Data.List.Perm.Basic

/-! # Lemmas for C77: normalising and rounding the shares of a unit -/

namespace HB.Terrain

set_option linter.unusedSectionVars false

open Spec

variable {K : Type} [Field K] [LinearOrder K] [IsStrictOrderedRing K]

theorem sum_map_div {α : Type} (l : List α) (f : α → K) (t : K) : (l.map fun e => f e / t).sum = (l.map f).sum / t := by
  induction l with
  | nil => simp
  | cons a r ih => simp [ih, add_div]

theorem sum_map_mul {α : Type} (l : List α) (f : α → K) (t : K) : (l.map fun e => f e * t).sum = (l.map f).sum * t := by
  induction l with
  | nil => simp
  | cons a r ih => simp [ih, add_mul]

theorem sum_pos_of {l : List K} (h : ∀ x ∈ l, 0 < x) (hne : l ≠ []) : 0 < l.sum := by
  cases l with
  | nil => exact absurd rfl hne
  | cons a r =>
    rw [List.sum_cons]
    have := List.sum_nonneg (l := r) fun x hx => (h x (by simp [hx])).le
    linarith [h a (by simp)]

/-- Sorted from the largest, below one, together at least `n`: the first `n` are positive. -/
theorem first_pos (R : List K) (n : ℕ) (hs : R.Pairwise fun a b => b ≤ a) (h1 : ∀ x ∈ R, x < 1)
    (hsum : (n : K) ≤ R.sum) : ∀ x ∈ R.take n, 0 < x := by
  induction R generalizing n with
  | nil => simp
  | cons a r ih =>
    cases n with
    | zero => simp
    | succ n =>
      rw [List.pairwise_cons] at hs
      have ha : 0 < a := by
        by_contra hh
        push Not at hh
        have gen : ∀ l : List K, (∀ x ∈ l, x ≤ 0) → l.sum ≤ 0 := by
          intro l
          induction l with
          | nil => simp
          | cons b t iht =>
            intro hl
            rw [List.sum_cons]
            linarith [hl b (by simp), iht fun x hx => hl x (by simp [hx])]
        have : (a :: r).sum ≤ 0 := gen _ fun x hx => by
          rcases List.mem_cons.1 hx with rfl | hx
          · exact hh
          · exact (hs.1 x hx).trans hh
        have h0 : (0 : K) ≤ n := n.cast_nonneg
        push_cast at hsum; linarith
      intro x hx
      rw [List.take_succ_cons] at hx
      rcases List.mem_cons.1 hx with rfl | hx
      · exact ha
      · refine ih n hs.2 (fun y hy => h1 y (by simp [hy])) ?_ x hx
        rw [List.sum_cons] at hsum
        push_cast at hsum
        linarith [h1 a (by simp)]

theorem count_in (ks up : List ℤ) (hk : ks.Nodup) (hu : up.Nodup) (hsub : ∀ x ∈ up, x ∈ ks) :
    (ks.map fun k => if k ∈ up then (1 : ℤ) else 0).sum = up.length := by
  have e : ∀ l : List ℤ, (l.map fun k => if k ∈ up then (1 : ℤ) else 0).sum = ((l.filter fun k => k ∈ up).length : ℤ) := by
    intro l
    induction l with
    | nil => simp
    | cons a r ih =>
      by_cases h : a ∈ up
      · simp [h, ih]; ring
      · simp [h, ih]
  rw [e]
  have : (ks.filter fun k => k ∈ up).Perm up := by
    rw [List.perm_ext_iff_of_nodup (hk.filter _) hu]
    intro a; simp only [List.mem_filter, decide_eq_true_eq]
    exact ⟨fun h => h.2, fun h => ⟨hsub a h, h⟩⟩
  rw [this.length_eq]

variable [FloorRing K]

theorem roundEven_int (n : ℤ) : roundEven (n : K) = n := by
  unfold roundEven
  rw [Int.floor_intCast, sub_self, if_pos (by norm_num)]

theorem trunc_nonneg {x : K} (h : 0 ≤ x) : trunc x = ⌊x⌋ := if_pos h

theorem sum_floor_cast {α : Type} (l : List α) (f : α → ℤ) : (((l.map f).sum : ℤ) : K) = (l.map fun e => ((f e : ℤ) : K)).sum := by
  induction l with
  | nil => simp
  | cons a r ih => simp [ih]

theorem sum_sub_map {α : Type} (l : List α) (f g : α → K) :
    (l.map fun e => f e - g e).sum = (l.map f).sum - (l.map g).sum := by
  induction l with
  | nil => simp
  | cons a r ih => simp only [List.map_cons, List.sum_cons, ih]; ring

/-- The keys rounded up: distinct keys with a positive remainder, as many as are missing. -/
theorem roundedUp_spec (p : ℕ) (d : List (ℤ × K)) (hn : (d.map Prod.fst).Nodup) (hpos : ∀ e ∈ d, 0 ≤ e.2) (ht : total d = 1) :
    (roundedUp p d).Nodup ∧ (∀ k ∈ roundedUp p d, ∃ e ∈ d, e.1 = k ∧ (⌊e.2 * 10 ^ p⌋ : K) < e.2 * 10 ^ p) ∧
      ((roundedUp p d).length : ℤ) = 10 ^ p - (d.map fun e => ⌊e.2 * 10 ^ p⌋).sum := by
  have hS : (0 : K) < 10 ^ p := by positivity
  have htr : ∀ e ∈ d, trunc (e.2 * 10 ^ p) = ⌊e.2 * 10 ^ p⌋ := fun e he => trunc_nonneg (mul_nonneg (hpos e he) hS.le)
  have hsumtr : (d.map fun e => trunc (e.2 * 10 ^ p)).sum = (d.map fun e => ⌊e.2 * 10 ^ p⌋).sum := by
    rw [List.map_congr_left htr]
  have hR : roundEven (total d * 10 ^ p) = 10 ^ p := by
    rw [ht, one_mul]
    have := roundEven_int (K := K) (10 ^ p)
    push_cast at this; exact this
  set R := d.map fun e => (e.1, e.2 * 10 ^ p - ((trunc (e.2 * 10 ^ p) : ℤ) : K)) with hRdef
  set L := R.insertionSort fun a b => b.2 ≤ a.2 with hL
  set D : ℤ := 10 ^ p - (d.map fun e => ⌊e.2 * 10 ^ p⌋).sum with hD
  have hup : roundedUp p d = slice (L.map Prod.fst) D := by
    unfold roundedUp
    simp only
    rw [hR, hsumtr]
  have perm : L.Perm R := List.perm_insertionSort _ _
  -- the sum of the remainders
  have hsumR : (R.map Prod.snd).sum = (D : K) := by
    rw [hRdef, List.map_map]
    have : ((Prod.snd : ℤ × K → K) ∘ fun e : ℤ × K => (e.1, e.2 * 10 ^ p - ((trunc (e.2 * 10 ^ p) : ℤ) : K)))
        = fun e => e.2 * 10 ^ p - ((trunc (e.2 * 10 ^ p) : ℤ) : K) := rfl
    rw [this, sum_sub_map, sum_map_mul d Prod.snd, hD, ← hsumtr, Int.cast_sub, sum_floor_cast]
    have : (d.map Prod.snd).sum = 1 := ht
    rw [this, one_mul]
    push_cast
    rfl
  have hfr : ∀ x ∈ R, 0 ≤ x.2 ∧ x.2 < 1 := by
    intro x hx
    obtain ⟨e, he, rfl⟩ := List.mem_map.1 hx
    simp only
    rw [htr e he]
    have a := Int.floor_le (e.2 * 10 ^ p)
    have b := Int.lt_floor_add_one (e.2 * 10 ^ p)
    constructor <;> linarith
  have hD0 : 0 ≤ D := by
    have : (0 : K) ≤ D := by
      rw [← hsumR]
      refine List.sum_nonneg fun x hx => ?_
      obtain ⟨y, hy, rfl⟩ := List.mem_map.1 hx
      exact (hfr y hy).1
    exact_mod_cast this
  have hDlen : D ≤ (L.length : ℤ) := by
    have : ∀ l : List (ℤ × K), (∀ x ∈ l, x.2 < 1) → (l.map Prod.snd).sum ≤ l.length := by
      intro l
      induction l with
      | nil => simp
      | cons a r ih =>
        intro h
        have := ih fun x hx => h x (by simp [hx])
        have := h a (by simp)
        simp only [List.map_cons, List.sum_cons, List.length_cons]
        push_cast; linarith
    have h1 := this R fun x hx => (hfr x hx).2
    rw [hsumR, ← perm.length_eq] at h1
    exact_mod_cast h1
  have hsl : roundedUp p d = (L.map Prod.fst).take D.toNat := by rw [hup, slice, if_pos hD0]
  have hkeys : (L.map Prod.fst).Perm (d.map Prod.fst) := by
    have := perm.map Prod.fst
    rw [hRdef, List.map_map] at this
    exact this
  refine ⟨?_, ?_, ?_⟩
  · rw [hsl]; exact ((hkeys.nodup_iff).2 hn).sublist (List.take_sublist _ _)
  · intro k hk
    rw [hsl, ← List.map_take] at hk
    obtain ⟨y, hy, rfl⟩ := List.mem_map.1 hk
    have hyR : y ∈ R := perm.mem_iff.1 (List.mem_of_mem_take hy)
    obtain ⟨e, he, rfl⟩ := List.mem_map.1 hyR
    refine ⟨e, he, rfl, ?_⟩
    have hsorted : L.Pairwise fun a b => b.2 ≤ a.2 := by
      haveI : Std.Total (fun a b : ℤ × K => b.2 ≤ a.2) := ⟨fun a b => _root_.le_total b.2 a.2⟩
      haveI : IsTrans (ℤ × K) (fun a b : ℤ × K => b.2 ≤ a.2) := ⟨fun a b c h1 h2 => h2.trans h1⟩
      exact List.pairwise_insertionSort (r := fun a b : ℤ × K => b.2 ≤ a.2) _
    have hp := first_pos (L.map Prod.snd) D.toNat (List.pairwise_map.2 hsorted)
      (fun x hx => by
        obtain ⟨y, hy, rfl⟩ := List.mem_map.1 hx
        exact (hfr y (perm.mem_iff.1 hy)).2)
      (by
        rw [(perm.map Prod.snd).sum_eq, hsumR]
        have : ((D.toNat : ℤ) : K) = (D : K) := by rw [Int.toNat_of_nonneg hD0]
        have h2 : ((D.toNat : ℕ) : K) = ((D.toNat : ℤ) : K) := by push_cast; rfl
        rw [h2, this])
    have := hp _ (by rw [← List.map_take]; exact List.mem_map_of_mem hy)
    simp only at this
    rw [htr e he] at this
    linarith
  · rw [hsl, List.length_take, List.length_map]
    omega

/-- What rounding the shares of a unit gives. -/
theorem roundRow_spec (p : ℕ) (d : List (ℤ × K)) (hn : (d.map Prod.fst).Nodup) (hpos : ∀ e ∈ d, 0 ≤ e.2) (ht : total d = 1) :
    (roundRow p d).map Prod.fst = d.map Prod.fst ∧ ((roundRow p d).map Prod.snd).sum = 1 ∧
    ∀ e' ∈ roundRow p d, ∃ e ∈ d, e.1 = e'.1 ∧ |e'.2 - e.2| < 1 / 10 ^ p ∧
      ∃ n : ℕ, e'.2 = n / 10 ^ p ∧ ⌊e.2 * 10 ^ p⌋ ≤ (n : ℤ) := by
  have hS : (0 : K) < 10 ^ p := by positivity
  obtain ⟨u1, u2, u3⟩ := roundedUp_spec p d hn hpos ht
  have htr : ∀ e ∈ d, trunc (e.2 * 10 ^ p) = ⌊e.2 * 10 ^ p⌋ := fun e he => trunc_nonneg (mul_nonneg (hpos e he) hS.le)
  refine ⟨by simp [roundRow, Function.comp_def], ?_, ?_⟩
  · have e1 : (roundRow p d).map Prod.snd =
        (d.map fun e => (((⌊e.2 * 10 ^ p⌋ + if e.1 ∈ roundedUp p d then 1 else 0 : ℤ) : K)) / 10 ^ p) := by
      rw [roundRow, List.map_map]
      refine List.map_congr_left fun e he => ?_
      simp only [Function.comp_apply, htr e he]
    rw [e1, sum_map_div d (fun e => ((⌊e.2 * 10 ^ p⌋ + if e.1 ∈ roundedUp p d then 1 else 0 : ℤ) : K)) (10 ^ p),
      ← sum_floor_cast]
    have e2 : (d.map fun e => (⌊e.2 * 10 ^ p⌋ + if e.1 ∈ roundedUp p d then 1 else 0 : ℤ)).sum = 10 ^ p := by
      have : ∀ l : List (ℤ × K), (l.map fun e => (⌊e.2 * 10 ^ p⌋ + if e.1 ∈ roundedUp p d then 1 else 0 : ℤ)).sum =
          (l.map fun e => ⌊e.2 * 10 ^ p⌋).sum + ((l.map Prod.fst).map fun k => if k ∈ roundedUp p d then (1 : ℤ) else 0).sum := by
        intro l
        induction l with
        | nil => simp
        | cons a r ih =>
          simp only [List.map_cons, List.sum_cons, ih]; ring
      rw [this, count_in _ _ hn u1 (fun k hk => by
        obtain ⟨e, he, hk', _⟩ := u2 k hk
        exact hk' ▸ List.mem_map_of_mem he), u3]
      ring
    rw [e2]
    push_cast
    exact div_self hS.ne'
  · intro e' he'
    obtain ⟨e, he, rfl⟩ := List.mem_map.1 he'
    refine ⟨e, he, rfl, ?_, ?_⟩
    · simp only
      rw [htr e he]
      have a := Int.floor_le (e.2 * 10 ^ p)
      have b := Int.lt_floor_add_one (e.2 * 10 ^ p)
      have key : ∀ t : ℤ, |(t : K) - e.2 * 10 ^ p| < 1 → |(t : K) / 10 ^ p - e.2| < 1 / 10 ^ p := by
        intro t h
        have : (t : K) / 10 ^ p - e.2 = ((t : K) - e.2 * 10 ^ p) / 10 ^ p := by field_simp
        rw [this, abs_div, abs_of_pos hS]
        exact div_lt_div_of_pos_right h hS
      apply key
      split_ifs with hk
      · obtain ⟨f, hf, hfk, hlt⟩ := u2 e.1 hk
        have hfe : f = e := List.inj_on_of_nodup_map hn hf he hfk
        subst hfe
        push_cast
        rw [abs_lt]; constructor <;> linarith
      · push_cast
        rw [abs_lt]; constructor <;> linarith
    · have h0 : 0 ≤ ⌊e.2 * 10 ^ p⌋ := Int.floor_nonneg.2 (mul_nonneg (hpos e he) hS.le)
      refine ⟨(⌊e.2 * 10 ^ p⌋ + if e.1 ∈ roundedUp p d then 1 else 0).toNat, ?_, ?_⟩
      · simp only
        rw [htr e he]
        have hz : 0 ≤ ⌊e.2 * 10 ^ p⌋ + if e.1 ∈ roundedUp p d then 1 else 0 := by split_ifs <;> omega
        have : ((((⌊e.2 * 10 ^ p⌋ + if e.1 ∈ roundedUp p d then 1 else 0).toNat : ℕ) : ℤ) : K)
            = ((⌊e.2 * 10 ^ p⌋ + if e.1 ∈ roundedUp p d then 1 else 0 : ℤ) : K) := by rw [Int.toNat_of_nonneg hz]
        rw [← this]; push_cast; rfl
      · split_ifs <;> omega

omit [FloorRing K] in
theorem nodup_filter_keys {d : List (ℤ × K)} (h : (d.map Prod.fst).Nodup) (q : ℤ × K → Bool) : ((d.filter q).map Prod.fst).Nodup :=
  h.sublist (List.filter_sublist.map _)

/-- Normalising, dropping the small shares, normalising again and rounding. -/
theorem shares_core (p : ℕ) (hp : 2 ≤ p) (f : List (ℤ × K)) (w : ℤ → K) (hn : (f.map Prod.fst).Nodup)
    (hw : ∀ e ∈ f, e.2 = w e.1) (hpos : ∀ e ∈ f, 0 < e.2) (hne : f ≠ []) :
    ∃ g : List (ℤ × K), g = roundRow p (normalize (dropSmall (normalize f))) ∧
      (∀ k, k ∈ g.map Prod.fst ↔ ∃ e ∈ f, e.1 = k ∧ 1 / 100 * total f ≤ e.2) ∧
      (g.map Prod.fst).Nodup ∧
      (g = [] → 100 < f.length) ∧
      (g ≠ [] → (∀ e ∈ g, 0 < e.2 ∧ e.2 ≤ 1) ∧ (g.map Prod.snd).sum = 1 ∧ (∀ e ∈ g, ∃ n : ℕ, e.2 = n / 10 ^ p) ∧
        ∀ e ∈ g, |e.2 - w e.1 / (g.map fun e => w e.1).sum| < 1 / 10 ^ p) := by
  have htf : 0 < total f := sum_pos_of (fun x hx => by
    obtain ⟨e, he, rfl⟩ := List.mem_map.1 hx; exact hpos e he) (by simpa using hne)
  set kept := f.filter fun e => decide (1 / 100 * total f ≤ e.2) with hkept
  have hds : dropSmall (normalize f) = kept.map fun e => (e.1, e.2 / total f) := by
    unfold dropSmall normalize
    rw [List.filter_map, hkept]
    congr 1
    refine List.filter_congr fun e _ => ?_
    simp only [Function.comp_apply]
    congr 1
    rw [le_div_iff₀ htf]
  have htot : total (dropSmall (normalize f)) = total kept / total f := by
    rw [hds, total, List.map_map]
    exact sum_map_div kept Prod.snd (total f)
  set h := normalize (dropSmall (normalize f)) with hh
  have hval : h = kept.map fun e => (e.1, e.2 / total kept) := by
    rw [hh, normalize, htot, hds, List.map_map]
    refine List.map_congr_left fun e he => ?_
    have hk : 0 < total kept := sum_pos_of (fun x hx => by
      obtain ⟨y, hy, rfl⟩ := List.mem_map.1 hx; exact hpos y (List.mem_of_mem_filter hy)) (by
        intro hc
        have : kept = [] := by simpa using hc
        rw [this] at he; cases he)
    simp only [Function.comp_apply, Prod.mk.injEq, true_and]
    field_simp
  have hkn : (kept.map Prod.fst).Nodup := nodup_filter_keys hn _
  have hhk : h.map Prod.fst = kept.map Prod.fst := by rw [hval, List.map_map]; rfl
  have hgk : (roundRow p h).map Prod.fst = kept.map Prod.fst := by
    rw [← hhk]; simp [roundRow, Function.comp_def]
  have memk : ∀ k, k ∈ kept.map Prod.fst ↔ ∃ e ∈ f, e.1 = k ∧ 1 / 100 * total f ≤ e.2 := by
    intro k
    simp only [hkept, List.mem_map, List.mem_filter, decide_eq_true_eq]
    constructor
    · rintro ⟨e, ⟨a, b⟩, c⟩; exact ⟨e, a, c, b⟩
    · rintro ⟨e, a, c, b⟩; exact ⟨e, ⟨a, b⟩, c⟩
  refine ⟨roundRow p h, rfl, fun k => by rw [hgk]; exact memk k, by rw [hgk]; exact hkn, ?_, ?_⟩
  · intro hg
    have hk : kept = [] := by
      have : (roundRow p h).map Prod.fst = [] := by rw [hg]; rfl
      rw [hgk] at this
      simpa using this
    have hlt : ∀ e ∈ f, e.2 < 1 / 100 * total f := by
      intro e he
      by_contra hc
      push Not at hc
      have : e ∈ kept := List.mem_filter.2 ⟨he, by simpa using hc⟩
      rw [hk] at this; cases this
    have gen : ∀ (l : List (ℤ × K)), l ≠ [] → (∀ e ∈ l, e.2 < 1 / 100 * total f) →
        (l.map Prod.snd).sum < l.length * (1 / 100 * total f) := by
      intro l
      induction l with
      | nil => intro h _; exact absurd rfl h
      | cons a r ih =>
        intro _ hl
        have ha := hl a (by simp)
        simp only [List.map_cons, List.sum_cons, List.length_cons]
        push_cast
        rcases r with _ | ⟨b, r⟩
        · simp only [List.map_nil, List.sum_nil, List.length_nil]; push_cast; linarith
        · have := ih (by simp) fun e he => hl e (by simp [he])
          linarith
    have := gen f hne hlt
    have h2 : total f < f.length * (1 / 100 * total f) := this
    by_contra hc
    push Not at hc
    have : (f.length : K) ≤ 100 := by exact_mod_cast hc
    nlinarith
  · intro hg
    have hkne : kept ≠ [] := by
      intro hk
      apply hg
      have : (roundRow p h).map Prod.fst = [] := by rw [hgk, hk]; rfl
      simpa using this
    have hkpos : 0 < total kept := sum_pos_of (fun x hx => by
      obtain ⟨y, hy, rfl⟩ := List.mem_map.1 hx; exact hpos y (List.mem_of_mem_filter hy)) (by simpa using hkne)
    have hkle : total kept ≤ total f := by
      have : ∀ l : List (ℤ × K), (∀ e ∈ l, 0 < e.2) →
          ((l.filter fun e => decide (1 / 100 * total f ≤ e.2)).map Prod.snd).sum ≤ (l.map Prod.snd).sum := by
        intro l
        induction l with
        | nil => simp
        | cons a r ih =>
          intro hl
          have := ih fun e he => hl e (by simp [he])
          have ha := hl a (by simp)
          rw [List.filter_cons]
          split
          · simp only [List.map_cons, List.sum_cons]; linarith
          · simp only [List.map_cons, List.sum_cons]; linarith
      exact this f hpos
    have hhn : (h.map Prod.fst).Nodup := by rw [hhk]; exact hkn
    have hhpos : ∀ e ∈ h, 0 ≤ e.2 := by
      intro e he
      rw [hval] at he
      obtain ⟨y, hy, rfl⟩ := List.mem_map.1 he
      exact div_nonneg (hpos y (List.mem_of_mem_filter hy)).le hkpos.le
    have hht : total h = 1 := by
      rw [hval, total, List.map_map]
      have := sum_map_div kept Prod.snd (total kept)
      refine this.trans ?_
      exact div_self hkpos.ne'
    obtain ⟨r1, r2, r3⟩ := roundRow_spec p h hhn hhpos hht
    have hbig : ∀ e ∈ h, 1 ≤ ⌊e.2 * 10 ^ p⌋ := by
      intro e he
      rw [hval] at he
      obtain ⟨y, hy, rfl⟩ := List.mem_map.1 he
      have hy2 : 1 / 100 * total f ≤ y.2 := by
        have := (List.mem_filter.1 hy).2
        simpa using this
      rw [Int.le_floor]
      simp only
      push_cast
      have h1 : (1 : K) / 100 ≤ y.2 / total kept := by
        rw [le_div_iff₀ hkpos]
        have : (1 : K) / 100 * total kept ≤ 1 / 100 * total f := by linarith
        linarith
      have h2 : (100 : K) ≤ 10 ^ p := by
        have : (10 : K) ^ 2 ≤ 10 ^ p := pow_le_pow_right₀ (by norm_num) hp
        linarith
      nlinarith
    have gpos : ∀ e ∈ roundRow p h, 0 < e.2 := by
      intro e' he'
      obtain ⟨e, he, _, _, n, hn1, hn2⟩ := r3 e' he'
      have := hbig e he
      have : 1 ≤ n := by omega
      have hnK : (0 : K) < n := by exact_mod_cast this
      rw [hn1]; positivity
    refine ⟨fun e he => ⟨gpos e he, ?_⟩, r2, ?_, ?_⟩
    · rw [← r2]
      exact List.single_le_sum (fun x hx => by
        obtain ⟨y, hy, rfl⟩ := List.mem_map.1 hx; exact (gpos y hy).le) _ (List.mem_map_of_mem he)
    · intro e' he'
      obtain ⟨_, _, _, _, n, hn1, _⟩ := r3 e' he'
      exact ⟨n, hn1⟩
    · intro e' he'
      obtain ⟨e, he, hk, habs, _⟩ := r3 e' he'
      have hsw : ((roundRow p h).map fun e => w e.1).sum = total kept := by
        have : ((roundRow p h).map fun e => w e.1) = ((roundRow p h).map Prod.fst).map w := by simp [Function.comp_def]
        rw [this, hgk, List.map_map, total]
        congr 1
        exact List.map_congr_left fun y hy => (hw y (List.mem_of_mem_filter hy)).symm
      rw [hsw]
      rw [hval] at he
      obtain ⟨y, hy, rfl⟩ := List.mem_map.1 he
      simp only at hk habs
      rw [← hk, ← hw y (List.mem_of_mem_filter hy)]
      exact habs

end HB.Terrain
