import Verif.Model.GlTable
import Mathlib.Tactic.Ring
import Mathlib.Tactic.FieldSimp
import Mathlib.Tactic.Linarith
import Mathlib.Tactic.Positivity

/-! # Lemmas about the delta-h tables -/

namespace HB.GlTable

set_option linter.unusedSectionVars false

/-- What is used of the square root. -/
structure RootLike {K : Type} [Field K] [LinearOrder K] (root : K → K) : Prop where
  zero : root 0 = 0
  one : root 1 = 1
  pos : ∀ x, 0 < x → 0 < root x
  le_one : ∀ x, 0 ≤ x → x ≤ 1 → root x ≤ 1
  le_root : ∀ x, 0 ≤ x → x ≤ 1 → x ≤ root x

section
variable {ι K : Type} [Fintype ι] [DecidableEq ι] [Field K] [LinearOrder K] [IsStrictOrderedRing K]

/-- A row is fine with respect to the first one. -/
structure Fine (mode : Width) (first : Row ι K) (r : Row ι K) : Prop where
  we : ∀ i, 0 ≤ r.we i
  area : ∀ i, 0 ≤ r.area i
  owed : 0 ≤ r.owed
  areaLe : ∀ i, r.area i ≤ first.area i
  weLe : ∀ i, r.we i ≤ first.we i
  ice : ∀ i, 0 < r.we i → 0 < r.area i
  wide : mode = .atTheEnd → ∀ i, 0 < r.we i → r.area i = first.area i

/-- The melt. -/
theorem melt_spec {dh : ι → K} {m : K} {r r' : Row ι K} (h : melt dh m r = some r') (hdh : ∀ i, 0 ≤ dh i)
    (hm : 0 ≤ m) (hwe : ∀ i, 0 ≤ r.we i) (ha : ∀ i, 0 ≤ r.area i) :
    r'.area = r.area ∧ (∀ i, 0 ≤ r'.we i) ∧ (∀ i, r'.we i ≤ r.we i) ∧ 0 ≤ r'.owed ∧
      (∑ i, r.area i * r'.we i = (∑ i, r.area i * r.we i) - m + r'.owed) ∧
      ((∀ i, 0 < r.area i → 0 < r'.we i) → r'.owed = 0) ∧
      (∀ i, dh i = 0 → r'.we i = r.we i) := by
  unfold melt at h
  dsimp only at h
  split at h
  · cases h
  · next hs =>
    cases h
    have hS : 0 < ∑ i, r.area i * dh i :=
      lt_of_le_of_ne (Finset.sum_nonneg fun i _ => mul_nonneg (ha i) (hdh i)) (Ne.symm hs)
    have hfs : 0 ≤ m / ∑ i, r.area i * dh i := div_nonneg hm hS.le
    set fs := m / ∑ i, r.area i * dh i with hfsd
    refine ⟨rfl, fun i => ?_, fun i => ?_, ?_, ?_, fun hall => ?_, fun i hi => ?_⟩
    · dsimp only
      split
      · exact _root_.le_refl _
      · next h => exact not_lt.1 h
    · dsimp only
      split
      · exact hwe i
      · have := mul_nonneg hfs (hdh i)
        linarith
    · dsimp only
      rw [neg_nonneg]
      refine Finset.sum_nonpos fun i _ => ?_
      split
      · next h => exact mul_nonpos_of_nonpos_of_nonneg h.le (ha i)
      · simp
    · dsimp only
      have e : ∀ i, r.area i * (if r.we i - fs * dh i < 0 then 0 else r.we i - fs * dh i) =
          r.area i * r.we i - fs * (r.area i * dh i) -
            (if r.we i - fs * dh i < 0 then r.we i - fs * dh i else 0) * r.area i := by
        intro i
        split <;> ring
      rw [Finset.sum_congr rfl fun i _ => e i, Finset.sum_sub_distrib, Finset.sum_sub_distrib, ← Finset.mul_sum]
      have : fs * ∑ i, r.area i * dh i = m := by rw [hfsd]; field_simp
      rw [this]
      ring
    · dsimp only at hall ⊢
      rw [neg_eq_zero]
      refine Finset.sum_eq_zero fun i _ => ?_
      rcases eq_or_lt_of_le (ha i) with h0 | h0
      · rw [← h0]; ring
      · have := hall i h0
        split at this
        · exact absurd this (lt_irrefl _)
        · next h => rw [if_neg h]; ring
    · dsimp only
      rw [hi, mul_zero, sub_zero, if_neg (not_lt.2 (hwe i))]

/-- The area of a band after the width scaling, before it is set to zero where there is no ice. -/
def scaledArea (root : K → K) (ref r : Row ι K) (i : ι) : K :=
  if 0 < ref.we i then ref.area i * root (r.we i / ref.we i) else 0

theorem scale_we (root : K → K) (ref old r : Row ι K) (i : ι) :
    (scale root ref old r).we i =
      if 0 < r.we i then r.we i * (old.area i / scaledArea root ref r i) else r.we i := rfl

theorem scale_area (root : K → K) (ref old r : Row ι K) (i : ι) :
    (scale root ref old r).area i = if (scale root ref old r).we i = 0 then 0 else scaledArea root ref r i := rfl

/-- The product of the width scaling: the water equivalent is conserved. -/
theorem scale_product {root : K → K} (hr : RootLike root) {ref old r : Row ι K} (i : ι)
    (hra : 0 < ref.we i → 0 < r.we i → 0 < old.area i → 0 < ref.area i)
    (href : 0 < r.we i → 0 < ref.we i) (hwe : 0 ≤ r.we i) (hold : 0 ≤ old.area i) :
    (scale root ref old r).area i * (scale root ref old r).we i = old.area i * r.we i := by
  rw [scale_area, scale_we]
  by_cases h : 0 < r.we i
  · have hrw := href h
    simp only [if_pos h, scaledArea, if_pos hrw]
    rcases eq_or_lt_of_le hold with h0 | h0
    · rw [← h0]; simp
    · have ha := hra hrw h h0
      have hx := hr.pos (r.we i / ref.we i) (div_pos h hrw)
      have hne : ¬ r.we i * (old.area i / (ref.area i * root (r.we i / ref.we i))) = 0 := by positivity
      rw [if_neg hne]
      field_simp
  · have h0 : r.we i = 0 := _root_.le_antisymm (not_lt.1 h) hwe
    simp [h0]

theorem keep_product {old r : Row ι K} (i : ι) : (keepWidth old r).area i * (keepWidth old r).we i = old.area i * r.we i := by
  unfold keepWidth
  dsimp only
  split
  · next h => rw [h]; simp
  · rfl

/-- One increment. -/
theorem step_spec {root : K → K} (hr : RootLike root) {mode : Width} {dh : ι → K} (hdh : ∀ i, 0 ≤ dh i) {w0 : K} {n : ℕ}
    (hw0 : 0 ≤ w0) {first old r : Row ι K} (hfa : ∀ i, 0 < first.area i)
    (hf : Fine mode first old) (h : step root mode dh w0 n first old = some r) :
    Fine mode first r ∧ (∑ i, r.area i * r.we i = (∑ i, old.area i * old.we i) - (w0 / n + old.owed) + r.owed) ∧
      (∀ i, r.area i * r.we i ≤ old.area i * old.we i) ∧
      ((∀ i, 0 < old.area i → 0 < r.we i) → r.owed = 0) ∧
      (∀ i, r.we i = 0 → r.area i = 0) ∧ (mode = .previous → ∀ i, r.area i ≤ old.area i) := by
  unfold step at h
  rw [Option.map_eq_some_iff] at h
  obtain ⟨r1, hmelt, hr1⟩ := h
  have hm : 0 ≤ w0 / n + old.owed := add_nonneg (div_nonneg hw0 (Nat.cast_nonneg n)) hf.owed
  obtain ⟨e1, e2, e3, e4, e5, e6, _⟩ := melt_spec hmelt hdh hm hf.we hf.area
  -- the product, in each mode
  have prod : ∀ i, r.area i * r.we i = old.area i * r1.we i := by
    intro i
    subst hr1
    cases mode with
    | initial =>
      exact scale_product hr i (fun _ _ _ => hfa i) (fun h => h.trans_le ((e3 i).trans (hf.weLe i))) (e2 i) (hf.area i)
    | previous =>
      exact scale_product hr i (fun _ _ h => h) (fun h => h.trans_le (e3 i)) (e2 i) (hf.area i)
    | atTheEnd => exact keep_product i
  have howed : r.owed = r1.owed := by
    subst hr1
    cases mode <;> rfl
  have hsum : ∑ i, r.area i * r.we i = (∑ i, old.area i * old.we i) - (w0 / n + old.owed) + r.owed := by
    rw [Finset.sum_congr rfl fun i _ => prod i, e5, howed]
  have hmono : ∀ i, r.area i * r.we i ≤ old.area i * old.we i := by
    intro i
    rw [prod i]
    exact mul_le_mul_of_nonneg_left (e3 i) (hf.area i)
  -- the shape, in each mode
  have shape : (∀ i, 0 ≤ r.we i) ∧ (∀ i, 0 ≤ r.area i) ∧ (∀ i, r.area i ≤ first.area i) ∧
      (∀ i, r.we i ≤ first.we i) ∧ (∀ i, 0 < r.we i → 0 < r.area i) ∧ (∀ i, r.we i = 0 → r.area i = 0) ∧
      (mode = .atTheEnd → ∀ i, 0 < r.we i → r.area i = first.area i) ∧
      (mode = .previous → ∀ i, r.area i ≤ old.area i) ∧ (∀ i, 0 < r.we i → 0 < r1.we i) := by
    -- the width scaling with a reference row
    have sc : ∀ ref : Row ι K, (∀ i, 0 ≤ ref.area i ∧ ref.area i ≤ first.area i) →
        (∀ i, old.area i ≤ ref.area i) → (∀ i, ref.we i ≤ first.we i) →
        (∀ i, r1.we i ≤ ref.we i) → (∀ i, 0 < r1.we i → 0 < ref.area i) →
        (∀ i, 0 ≤ (scale root ref old r1).we i) ∧ (∀ i, 0 ≤ (scale root ref old r1).area i) ∧
        (∀ i, (scale root ref old r1).area i ≤ ref.area i) ∧
        (∀ i, (scale root ref old r1).we i ≤ first.we i) ∧
        (∀ i, 0 < (scale root ref old r1).we i → 0 < (scale root ref old r1).area i) ∧
        (∀ i, (scale root ref old r1).we i = 0 → (scale root ref old r1).area i = 0) ∧
        (∀ i, 0 < (scale root ref old r1).we i → 0 < r1.we i) := by
      intro ref hA hO hW hR hP
      have hroot : ∀ i, 0 < ref.we i → 0 ≤ root (r1.we i / ref.we i) := by
        intro i hi
        rcases eq_or_lt_of_le (e2 i) with h0 | h0
        · rw [← h0, zero_div, hr.zero]
        · exact (hr.pos _ (div_pos h0 hi)).le
      have hle1 : ∀ i, 0 < ref.we i → r1.we i / ref.we i ≤ 1 := fun i hi => (div_le_one hi).2 (hR i)
      have hnn : ∀ i, 0 < ref.we i → 0 ≤ r1.we i / ref.we i := fun i hi => div_nonneg (e2 i) hi.le
      have hann : ∀ i, 0 ≤ scaledArea root ref r1 i ∧ scaledArea root ref r1 i ≤ ref.area i := by
        intro i
        unfold scaledArea
        split
        · next h => exact ⟨mul_nonneg (hA i).1 (hroot i h), mul_le_of_le_one_right (hA i).1 (hr.le_one _ (hnn i h) (hle1 i h))⟩
        · exact ⟨_root_.le_refl _, (hA i).1⟩
      have hwnn : ∀ i, 0 ≤ (scale root ref old r1).we i := by
        intro i
        rw [scale_we]
        split
        · next h => exact mul_nonneg h.le (div_nonneg (hf.area i) (hann i).1)
        · exact e2 i
      refine ⟨hwnn, fun i => ?_, fun i => ?_, fun i => ?_, fun i hi => ?_, fun i hi => ?_, fun i hi => ?_⟩
      · rw [scale_area]
        split
        · exact _root_.le_refl _
        · exact (hann i).1
      · rw [scale_area]
        split
        · exact (hA i).1
        · exact (hann i).2
      · rw [scale_we]
        split
        · next h =>
          have hrw := h.trans_le (hR i)
          unfold scaledArea
          rw [if_pos hrw]
          have hx := hr.pos _ (div_pos h hrw)
          have hrp := hP i h
          have h1 : old.area i / (ref.area i * root (r1.we i / ref.we i)) ≤ 1 / root (r1.we i / ref.we i) := by
            rw [div_le_div_iff₀ (mul_pos hrp hx) hx]
            have := mul_le_mul_of_nonneg_right (hO i) hx.le
            linarith
          have h2 : r1.we i * (1 / root (r1.we i / ref.we i)) ≤ ref.we i := by
            rw [mul_one_div, div_le_iff₀ hx]
            have := mul_le_mul_of_nonneg_left (hr.le_root _ (hnn i hrw) (hle1 i hrw)) hrw.le
            rwa [mul_div_cancel₀ _ hrw.ne'] at this
          exact ((mul_le_mul_of_nonneg_left h1 h.le).trans h2).trans (hW i)
        · exact (e3 i).trans (hf.weLe i)
      · rw [scale_area, if_neg hi.ne']
        rw [scale_we] at hi
        split at hi
        · next h =>
          have hrw := h.trans_le (hR i)
          unfold scaledArea
          rw [if_pos hrw]
          exact mul_pos (hP i h) (hr.pos _ (div_pos h hrw))
        · next h => exact absurd hi h
      · rw [scale_area, if_pos hi]
      · rw [scale_we] at hi
        split at hi
        · next h => exact h
        · exact hi
    cases mode with
    | initial =>
      have hx : scale root first old r1 = r := hr1
      subst hx
      obtain ⟨a, b, c, d, e, f, g⟩ := sc first (fun i => ⟨(hfa i).le, _root_.le_refl _⟩) hf.areaLe (fun _ => _root_.le_refl _)
        (fun i => (e3 i).trans (hf.weLe i)) (fun i _ => hfa i)
      exact ⟨a, b, c, d, e, f, (fun h => by cases h), (fun h => by cases h), g⟩
    | previous =>
      have hx : scale root old old r1 = r := hr1
      subst hx
      obtain ⟨a, b, c, d, e, f, g⟩ := sc old (fun i => ⟨hf.area i, hf.areaLe i⟩) (fun _ => _root_.le_refl _) hf.weLe e3
        (fun i h => hf.ice i (h.trans_le (e3 i)))
      exact ⟨a, b, fun i => (c i).trans (hf.areaLe i), d, e, f, (fun h => by cases h), fun _ => c, g⟩
    | atTheEnd =>
      have hx : keepWidth old r1 = r := hr1
      subst hx
      have hpos : ∀ i, 0 < r1.we i → old.area i = first.area i :=
        fun i h => hf.wide rfl i (h.trans_le (e3 i))
      refine ⟨e2, fun i => ?_, fun i => ?_, fun i => (e3 i).trans (hf.weLe i), fun i hi => ?_, fun i hi => ?_,
        fun _ i hi => ?_, (fun h => by cases h), fun i hi => hi⟩
      · show 0 ≤ if r1.we i = 0 then 0 else old.area i
        split
        · exact _root_.le_refl _
        · exact hf.area i
      · show (if r1.we i = 0 then 0 else old.area i) ≤ _
        split
        · exact (hfa i).le
        · exact hf.areaLe i
      · show 0 < if r1.we i = 0 then 0 else old.area i
        have hi' : 0 < r1.we i := hi
        rw [if_neg hi'.ne', hpos i hi]
        exact hfa i
      · show (if r1.we i = 0 then 0 else old.area i) = 0
        have hi' : r1.we i = 0 := hi
        rw [if_pos hi']
      · show (if r1.we i = 0 then 0 else old.area i) = _
        have hi' : 0 < r1.we i := hi
        rw [if_neg hi'.ne']
        exact hpos i hi
  obtain ⟨s1, s2, s3, s4, s5, s6, s7, s8, s9⟩ := shape
  refine ⟨⟨s1, s2, howed ▸ e4, s3, s4, s5, s7⟩, hsum, hmono, fun hall => ?_, s6, s8⟩
  rw [howed]
  exact e6 fun i hi => s9 i (hall i hi)

/-- All the rows. -/
theorem rows_spec {root : K → K} (hr : RootLike root) {mode : Width} {dh : ι → K} (hdh : ∀ i, 0 ≤ dh i) {n : ℕ}
    (hn : 0 < n) {first : Row ι K} (hfa : ∀ i, 0 < first.area i) (hfw : ∀ i, 0 ≤ first.we i) (hfo : first.owed = 0)
    {w0 : K} (hw0 : w0 = ∑ i, first.area i * first.we i) (k : ℕ) (r : Row ι K)
    (h : rows root mode dh w0 n first k = some r) :
    Fine mode first r ∧ (∑ i, r.area i * r.we i = w0 * (1 - k / n) + r.owed) ∧
      (0 < k → ∀ i, r.we i = 0 → r.area i = 0) := by
  have hw0n : 0 ≤ w0 := by
    rw [hw0]
    exact Finset.sum_nonneg fun i _ => mul_nonneg (hfa i).le (hfw i)
  induction k generalizing r with
  | zero =>
    cases h
    refine ⟨⟨hfw, fun i => (hfa i).le, by rw [hfo], fun _ => _root_.le_refl _, fun _ => _root_.le_refl _, fun i _ => hfa i,
      fun _ _ _ => rfl⟩, ?_, fun h => absurd h (lt_irrefl _)⟩
    rw [hfo, hw0]
    simp
  | succ k ih =>
    unfold rows at h
    rw [Option.bind_eq_some_iff] at h
    obtain ⟨old, hold, hstep⟩ := h
    obtain ⟨hf, hs, _⟩ := ih old hold
    obtain ⟨a, b, _, _, e, _⟩ := step_spec hr hdh hw0n hfa hf hstep
    refine ⟨a, ?_, fun _ => e⟩
    rw [b, hs]
    have : (n : K) ≠ 0 := by exact_mod_cast hn.ne'
    push_cast
    field_simp
    ring

/-- `_final_width_scaling` keeps the product and the shape. -/
theorem final_spec {root : K → K} (hr : RootLike root) {first r : Row ι K} (hfa : ∀ i, 0 < first.area i)
    (hf : Fine .atTheEnd first r) (hz : ∀ i, r.we i = 0 → r.area i = 0) :
    (∀ i, (finalWidth root first r).area i * (finalWidth root first r).we i = r.area i * r.we i) ∧
      (∀ i, 0 ≤ (finalWidth root first r).we i) ∧ (∀ i, 0 ≤ (finalWidth root first r).area i) ∧
      (∀ i, (finalWidth root first r).area i ≤ first.area i) ∧
      (∀ i, (finalWidth root first r).we i ≤ first.we i) ∧
      (∀ i, 0 < (finalWidth root first r).we i → 0 < (finalWidth root first r).area i) ∧
      (∀ i, (finalWidth root first r).we i = 0 → (finalWidth root first r).area i = 0) := by
  have hcase : ∀ i, (r.we i = 0 ∧ (finalWidth root first r).we i = 0 ∧ (finalWidth root first r).area i = 0) ∨
      (0 < r.we i ∧ 0 < first.we i ∧ 0 < root (r.we i / first.we i) ∧
        (finalWidth root first r).area i = first.area i * root (r.we i / first.we i) ∧
        (finalWidth root first r).we i = r.we i / root (r.we i / first.we i)) := by
    intro i
    rcases eq_or_lt_of_le (hf.we i) with h0 | h0
    · left
      refine ⟨h0.symm, ?_, ?_⟩
      · unfold finalWidth
        dsimp only
        rw [if_neg (by rw [← h0]; exact lt_irrefl _)]
        exact h0.symm
      · unfold finalWidth
        dsimp only
        split
        · rw [← h0, zero_div, hr.zero, mul_zero]
        · exact hz i h0.symm
    · right
      have hfw := h0.trans_le (hf.weLe i)
      have hx := hr.pos _ (div_pos h0 hfw)
      have ha := hfa i
      refine ⟨h0, hfw, hx, ?_, ?_⟩
      · unfold finalWidth
        dsimp only
        rw [if_pos hfw]
      · unfold finalWidth
        dsimp only
        rw [if_pos h0, if_pos hfw]
        field_simp
  refine ⟨fun i => ?_, fun i => ?_, fun i => ?_, fun i => ?_, fun i => ?_, fun i hi => ?_, fun i hi => ?_⟩
  · rcases hcase i with ⟨h0, h1, h2⟩ | ⟨h0, h1, h2, h3, h4⟩
    · rw [h1, h0]; simp
    · rw [h3, h4, hf.wide rfl i h0]
      field_simp
  · rcases hcase i with ⟨h0, h1, h2⟩ | ⟨h0, h1, h2, h3, h4⟩
    · rw [h1]
    · rw [h4]; exact (div_pos h0 h2).le
  · rcases hcase i with ⟨h0, h1, h2⟩ | ⟨h0, h1, h2, h3, h4⟩
    · rw [h2]
    · rw [h3]; exact (mul_pos (hfa i) h2).le
  · rcases hcase i with ⟨h0, h1, h2⟩ | ⟨h0, h1, h2, h3, h4⟩
    · rw [h2]; exact (hfa i).le
    · rw [h3]
      exact mul_le_of_le_one_right (hfa i).le (hr.le_one _ (div_pos h0 h1).le ((div_le_one h1).2 (hf.weLe i)))
  · rcases hcase i with ⟨h0, h1, h2⟩ | ⟨h0, h1, h2, h3, h4⟩
    · rw [h1]; exact h0 ▸ hf.weLe i
    · rw [h4, div_le_iff₀ h2]
      have := mul_le_mul_of_nonneg_left (hr.le_root _ (div_pos h0 h1).le ((div_le_one h1).2 (hf.weLe i))) h1.le
      rwa [mul_div_cancel₀ _ h1.ne'] at this
  · rcases hcase i with ⟨h0, h1, h2⟩ | ⟨h0, h1, h2, h3, h4⟩
    · rw [h1] at hi; exact absurd hi (lt_irrefl _)
    · rw [h3]; exact mul_pos (hfa i) h2
  · rcases hcase i with ⟨h0, h1, h2⟩ | ⟨h0, h1, h2, h3, h4⟩
    · exact h2
    · rw [h4] at hi; exact absurd hi (div_pos h0 h2).ne'

/-- A row of the tables of bands: what the parts rely on. -/
structure BandFine (first r : Row ι K) : Prop where
  we : ∀ i, 0 ≤ r.we i
  area : ∀ i, 0 ≤ r.area i
  areaLe : ∀ i, r.area i ≤ first.area i
  weLe : ∀ i, r.we i ≤ first.we i
  ice : ∀ i, 0 < r.we i → 0 < r.area i

theorem bandRow_spec {root : K → K} (hr : RootLike root) {mode : Width} {dh : ι → K} (hdh : ∀ i, 0 ≤ dh i) {n : ℕ}
    (hn : 0 < n) {first : Row ι K} (hfa : ∀ i, 0 < first.area i) (hfw : ∀ i, 0 ≤ first.we i) (hfo : first.owed = 0)
    {w0 : K} (hw0 : w0 = ∑ i, first.area i * first.we i) (k : ℕ) (r : Row ι K)
    (h : bandRow root mode dh w0 n first k = some r) :
    BandFine first r ∧ 0 ≤ r.owed ∧ (k ≤ n → ∑ i, r.area i * r.we i = w0 * (1 - k / n) + r.owed) ∧
      (0 < k → ∀ i, r.we i = 0 → r.area i = 0) := by
  unfold bandRow at h
  split at h
  · rw [Option.map_eq_some_iff] at h
    obtain ⟨r0, hr0, h⟩ := h
    obtain ⟨hf, hs, hz⟩ := rows_spec hr hdh hn hfa hfw hfo hw0 k r0 hr0
    split at h
    · next hm =>
      obtain ⟨hm, hk⟩ := hm
      subst hm
      subst h
      obtain ⟨p1, p2, p3, p4, p5, p6, p7⟩ := final_spec hr hfa hf (hz hk)
      refine ⟨⟨p2, p3, p4, p5, p6⟩, hf.owed, fun _ => ?_, fun _ => p7⟩
      rw [Finset.sum_congr rfl fun i _ => p1 i, hs]
      rfl
    · subst h
      exact ⟨⟨hf.we, hf.area, hf.areaLe, hf.weLe, hf.ice⟩, hf.owed, fun _ => hs, hz⟩
  · next hk =>
    cases h
    refine ⟨⟨fun _ => _root_.le_refl _, fun _ => _root_.le_refl _, fun i => (hfa i).le, hfw, fun i h => absurd h (lt_irrefl _)⟩,
      _root_.le_refl _, fun hkn => ?_, fun _ _ _ => rfl⟩
    have : k = n := _root_.le_antisymm hkn (not_lt.1 hk)
    subst this
    have : (k : K) ≠ 0 := by exact_mod_cast hn.ne'
    simp [this]

end

end HB.GlTable
