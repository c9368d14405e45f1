import Verif.Model.Glacier
import Verif.Props.LandCover
import Mathlib.Algebra.Order.Floor.Semiring
import Mathlib.Data.Rat.Floor
import Mathlib.Tactic.IntervalCases

/-! # C38: glacier evolution -/

set_option linter.unusedSectionVars false
set_option linter.unusedDecidableInType false

namespace HB

variable {K : Type} [Field K] [LinearOrder K] [IsStrictOrderedRing K] [FloorSemiring K]

/-! ## Specification -/

/-- Ice volume of a hydro unit: extent × area of the unit × depth. -/
def Spec.iceVolume (c : String) (area : K) (u : HU K) : K := u.frac c * area * u.depth c .selfIce

/-- Total ice volume of a glacier lying over several units. -/
def Spec.glacierIce (c : String) (l : List (GlUnit K)) : K := (l.map fun g => Spec.iceVolume c g.area g.hu).sum

/-- Extents of a table that are not altered by the snapping to 0 and 1 (tolerance 1e-8). -/
def Spec.CleanFraction (f : K) : Prop := f = 0 ∨ f = 1 ∨ (prec < f ∧ f < 1 - prec)

/-! ## The row of the table -/

theorem glRow_eq (n : ℕ) (hn : 2 ≤ n) (w0 w : K) :
    glRow n w0 w = ⌊max 0 ((w0 - w) / w0) * ((n : K) - 1)⌋₊ := by
  unfold glRow
  rw [one_div, div_inv_eq_mul]

/-- **C38 (row inside the table).** The looked-up row exists, is the last one only when no ice is left, and is the
first one as long as there is at least as much ice as initially. -/
theorem c38_row_bounds (n : ℕ) (hn : 2 ≤ n) (w0 w : K) (h0 : 0 < w0) (hw : 0 ≤ w) :
    glRow n w0 w ≤ n - 1 ∧ (0 < w → glRow n w0 w < n - 1) ∧ (w = 0 → glRow n w0 w = n - 1) ∧
      (w0 ≤ w → glRow n w0 w = 0) := by
  have hn1 : (0 : K) < (n : K) - 1 := by
    have : (2 : K) ≤ n := by exact_mod_cast hn
    linarith
  have hcast : ((n - 1 : ℕ) : K) = (n : K) - 1 := by
    rw [Nat.cast_sub (by omega)]; simp
  have hpc : max 0 ((w0 - w) / w0) ≤ 1 := max_le zero_le_one (by rw [div_le_one h0]; linarith)
  rw [glRow_eq n hn]
  refine ⟨?_, ?_, ?_, ?_⟩
  · apply Nat.floor_le_of_le
    rw [hcast]; nlinarith
  · intro hw'
    have : max 0 ((w0 - w) / w0) < 1 := max_lt zero_lt_one (by rw [div_lt_one h0]; linarith)
    rw [Nat.floor_lt (mul_nonneg (le_max_left _ _) hn1.le), hcast]
    nlinarith
  · rintro rfl
    rw [sub_zero, div_self h0.ne', max_eq_right zero_le_one, one_mul, ← hcast, Nat.floor_natCast]
  · intro h
    have : (w0 - w) / w0 ≤ 0 := div_nonpos_of_nonpos_of_nonneg (by linarith) h0.le
    rw [max_eq_left this, zero_mul, Nat.floor_zero]

/-- **C38 (monotone look-up).** The less ice is left, the further the look-up is. -/
theorem c38_row_mono (n : ℕ) (hn : 2 ≤ n) (w0 w w' : K) (h0 : 0 < w0) (h : w ≤ w') :
    glRow n w0 w' ≤ glRow n w0 w := by
  have hn1 : (0 : K) < (n : K) - 1 := by
    have : (2 : K) ≤ n := by exact_mod_cast hn
    linarith
  rw [glRow_eq n hn, glRow_eq n hn]
  apply Nat.floor_le_floor
  apply mul_le_mul_of_nonneg_right _ hn1.le
  exact max_le_max le_rfl (div_le_div_of_nonneg_right (by linarith) h0.le)

/-! ## Extents after a change -/

theorem HU.fix_frac_ne (u : HU K) {n : String} (hg : u.generic ≠ some n) :
    u.fix.2.frac n = u.frac n ∧ u.fix.2.covers = u.covers ∧ u.fix.2.slot = u.slot := by
  unfold HU.fix
  split
  · exact ⟨rfl, rfl, rfl⟩
  · dsimp only
    split
    · exact ⟨rfl, rfl, rfl⟩
    · rename_i g hg'
      have hne : n ≠ g := by rintro rfl; exact hg hg'
      split
      · exact ⟨rfl, rfl, rfl⟩
      · split <;> exact ⟨by simp [HU.setFrac, Function.update_of_ne hne], rfl, rfl⟩

theorem HU.generic_congr {u v : HU K} (h : u.covers = v.covers) : u.generic = v.generic := by
  unfold HU.generic; rw [h]

/-- A request on a cover other than the generic one: nothing happens, or the extent is the requested one. -/
theorem HU.change_frac (u : HU K) (n : String) (f : K) (hg : u.generic ≠ some n) :
    ((u.change n f).2 = u ∨ (u.change n f).2.frac n = f) ∧ ((u.change n f).1 = true → (u.change n f).2.frac n = f) ∧
      (u.change n f).2.covers = u.covers := by
  have key : ∀ v : HU K, v.covers = u.covers →
      (v.setFrac n f).fix.2.frac n = f ∧ (v.setFrac n f).fix.2.covers = u.covers := by
    intro v hv
    have hgen : (v.setFrac n f).generic ≠ some n := by
      rw [HU.generic_congr (show (v.setFrac n f).covers = u.covers from hv)]; exact hg
    have := HU.fix_frac_ne _ hgen
    exact ⟨by rw [this.1]; simp [HU.setFrac], by rw [this.2.1]; exact hv⟩
  unfold HU.change
  split
  · simp
  · split
    · simp
    · split
      · have := key u rfl; exact ⟨Or.inr this.1, fun _ => this.1, this.2⟩
      · split
        · rename_i g _ _
          dsimp only
          split
          · simp
          · have := key _ (HU.transfer_frac u n (u.frac n) f g (u.frac g) (u.frac g - (f - u.frac n))).2
            exact ⟨Or.inr this.1, fun _ => this.1, this.2⟩
        · have := key u rfl; exact ⟨Or.inr this.1, fun _ => this.1, this.2⟩

theorem checkFraction_range {f f' : K} (h : checkFraction f = some f') : 0 ≤ f' ∧ f' ≤ 1 := by
  unfold checkFraction at h
  split at h
  · cases h; simp
  · split at h
    · cases h; simp
    · split at h
      · simp at h
      · rename_i h3
        cases h; push Not at h3; exact h3

theorem checkFraction_clean {f f' : K} (hf : Spec.CleanFraction f) (h : checkFraction f = some f') : f' = f := by
  have hp : (0 : K) < prec := by unfold prec; positivity
  have hp1 : (prec : K) < 1 := by unfold prec; norm_num
  unfold checkFraction at h
  rcases hf with rfl | rfl | ⟨h1, h2⟩
  · rw [if_pos (by simp [nearlyZero, hp.le])] at h; cases h; rfl
  · rw [if_neg (by simp [nearlyZero, hp1]), if_pos (by simp [nearlyEqual, hp.le])] at h; cases h; rfl
  · have a : ¬ nearlyZero f prec = true := by
      simp only [nearlyZero, decide_eq_true_eq, not_le]; exact lt_of_lt_of_le h1 (le_abs_self _)
    have b : ¬ nearlyEqual 1 f prec = true := by
      simp only [nearlyEqual, decide_eq_true_eq, not_le]
      exact lt_of_lt_of_le (by linarith) (le_abs_self _)
    rw [if_neg a, if_neg b] at h
    split at h
    · simp at h
    · cases h; rfl

theorem GlUnit.resize_ok {g : GlUnit K} {c : String} {a : K} {h : HU K} (hg : g.hu.generic ≠ some c)
    (hr : g.resize c a = .ok h) :
    (0 ≤ h.frac c ∧ h.frac c ≤ 1) ∧ (Spec.CleanFraction (a / g.area) → h.frac c = a / g.area) ∧
      h.covers = g.hu.covers := by
  unfold GlUnit.resize at hr
  split at hr
  · cases hr
  · rename_i f hf
    split at hr
    · rename_i hok
      cases hr
      have := HU.change_frac g.hu c f hg
      refine ⟨?_, ?_, this.2.2⟩
      · rw [this.2.1 hok]; exact checkFraction_range hf
      · intro hcl; rw [this.2.1 hok]; exact checkFraction_clean hcl hf
    · cases hr

theorem HU.setIce_ok {u v : HU K} {c : String} {x : K} (h : u.setIce c x = .ok v) :
    v.frac = u.frac ∧ v.covers = u.covers ∧ v.depth c .selfIce = x := by
  unfold HU.setIce at h
  split at h
  · cases h
  · cases h; exact ⟨rfl, rfl, by simp [HU.depth]⟩

/-! ## Area scaling -/

/-- **C38 (area scaling).** An application that succeeds: a glacier with ice gets the extent of the looked-up row and
keeps exactly its ice volume; in every case the ice volume changes by at most the 1e-8 of a glacier considered empty,
and the extent stays in [0,1]. -/
theorem c38_area_scaling {g : GlUnit K} {c : String} {n : ℕ} {w0 : K} {v : HU K} (hg : g.hu.generic ≠ some c)
    (ha : 0 < g.area) (hf : 0 ≤ g.hu.frac c ∧ g.hu.frac c ≤ 1)
    (hclean : ∀ r < n, Spec.CleanFraction (g.tabArea r / g.area)) (h : g.areaScaling c n w0 = .ok v) :
    (c ∈ g.hu.covers → prec < g.hu.frac c → prec < |Spec.iceVolume c g.area g.hu| →
      v.frac c * g.area = g.tabArea (glRow n w0 (Spec.iceVolume c g.area g.hu)) ∧
      Spec.iceVolume c g.area v = Spec.iceVolume c g.area g.hu) ∧
    |Spec.iceVolume c g.area v - Spec.iceVolume c g.area g.hu| ≤ prec ∧ 0 ≤ v.frac c ∧ v.frac c ≤ 1 := by
  have hp : (0 : K) < prec := by unfold prec; positivity
  unfold GlUnit.areaScaling at h
  split at h
  · rename_i h1
    cases h
    refine ⟨?_, by simp [hp.le], hf⟩
    intro hc hfp
    exfalso
    rcases h1 with h1 | h1
    · exact h1 hc
    · have := of_decide_eq_true h1
      exact absurd (le_trans (le_abs_self _) this) (not_le.2 hfp)
  · dsimp only at h
    split at h
    · rename_i h2
      have h2' := of_decide_eq_true h2
      cases h
      have hch := (HU.change_frac g.hu c 0 hg).1
      refine ⟨?_, ?_, ?_⟩
      · intro _ _ h3
        exact absurd h2' (not_le.2 h3)
      · rcases hch with hch | hch
        · rw [hch]; simp [hp.le]
        · have : Spec.iceVolume c g.area (g.hu.change c 0).2 = 0 := by
            unfold Spec.iceVolume; rw [hch]; ring
          rw [this, zero_sub, abs_neg]; exact h2'
      · rcases hch with hch | hch
        · rw [hch]; exact hf
        · rw [hch]; simp
    · split at h
      · rename_i hrow
        split at h
        · cases h
        · rename_i w hw
          split at h
          · cases h
          · rename_i hne
            have hr := GlUnit.resize_ok hg hw
            have hs := HU.setIce_ok h
            have hfrac := hr.2.1 (hclean _ hrow)
            have e1 : v.frac c * g.area = g.tabArea (glRow n w0 (Spec.iceVolume c g.area g.hu)) := by
              rw [hs.1, hfrac]; unfold Spec.iceVolume; field_simp
            have e2 : Spec.iceVolume c g.area v = Spec.iceVolume c g.area g.hu := by
              show v.frac c * g.area * v.depth c .selfIce = _
              rw [e1, hs.2.2]
              unfold Spec.iceVolume at *
              field_simp
            refine ⟨fun _ _ _ => ⟨e1, e2⟩, by rw [e2]; simp [hp.le], ?_⟩
            rw [hs.1]; exact hr.1
      · cases h

/-! ## Delta-h -/

theorem glResizeAll_ok {c : String} {row : ℕ} : ∀ {l l1 : List (GlUnit K)}, glResizeAll c row l = .ok l1 →
    (∀ g ∈ l, g.hu.generic ≠ some c) → (∀ g ∈ l, 0 < g.area) →
    (∀ g ∈ l, Spec.CleanFraction (g.tabArea row / g.area)) →
    List.Forall₂ (fun g g' => g'.area = g.area ∧ g'.tabArea = g.tabArea ∧ g'.tabVol = g.tabVol ∧
      g'.hu.covers = g.hu.covers ∧ g'.hu.frac c * g.area = g.tabArea row) l l1 := by
  intro l
  induction l with
  | nil => intro l1 h _ _ _; cases h; exact .nil
  | cons g l ih =>
    intro l1 h hg ha hcl
    unfold glResizeAll at h
    split at h
    · cases h
    · rename_i w hw
      split at h
      · cases h
      · rename_i l' hl'
        cases h
        have hr := GlUnit.resize_ok (hg g (by simp)) hw
        refine .cons ⟨rfl, rfl, rfl, hr.2.2, ?_⟩ (ih hl' (fun x hx => hg x (by simp [hx]))
          (fun x hx => ha x (by simp [hx])) (fun x hx => hcl x (by simp [hx])))
        have := ha g (by simp)
        show w.frac c * g.area = _
        rw [hr.2.1 (hcl g (by simp))]; field_simp

theorem glSpread_ok {c : String} {row : ℕ} {we rowSum : K} : ∀ {l l1 : List (GlUnit K)},
    glSpread c row we rowSum l = .ok l1 →
    (∀ g ∈ l, g.tabArea row = 0 ∧ g.tabVol row = 0 ∨ prec < g.tabArea row) →
    (∀ g ∈ l, g.hu.frac c * g.area = g.tabArea row) →
    List.Forall₂ (fun g g' => g'.area = g.area ∧ g'.tabArea = g.tabArea ∧ g'.tabVol = g.tabVol ∧
      g'.hu.covers = g.hu.covers ∧ g'.hu.frac c = g.hu.frac c ∧
      Spec.iceVolume c g'.area g'.hu = we * (g.tabVol row / rowSum)) l l1 := by
  have hp : (0 : K) < prec := by unfold prec; positivity
  intro l
  induction l with
  | nil => intro l1 h _ _; cases h; exact .nil
  | cons g l ih =>
    intro l1 h hcl hfr
    unfold glSpread at h
    dsimp only at h
    split at h
    · cases h
    · rename_i v hv
      split at h
      · cases h
      · rename_i w hw
        split at h
        · cases h
        · rename_i l' hl'
          cases h
          have hs := HU.setIce_ok hw
          refine .cons ⟨rfl, rfl, rfl, hs.2.1, by rw [← hs.1], ?_⟩
            (ih hl' (fun x hx => hcl x (by simp [hx])) (fun x hx => hfr x (by simp [hx])))
          show w.frac c * g.area * w.depth c .selfIce = _
          rw [hs.1, hfr g (by simp), hs.2.2]
          rcases hcl g (by simp) with ⟨h0, h0'⟩ | h0
          · rw [h0, h0']; simp
          · have a : ¬ nearlyZero (g.tabArea row) prec = true := by
              simp only [nearlyZero, decide_eq_true_eq, not_le]; exact lt_of_lt_of_le h0 (le_abs_self _)
            rw [if_neg a] at hv
            split at hv
            · cases hv
            · cases hv
              have : g.tabArea row ≠ 0 := (hp.trans h0).ne'
              field_simp

theorem glTotal_eq {c : String} {l : List (GlUnit K)} (hc : ∀ g ∈ l, c ∈ g.hu.covers)
    (hf : ∀ g ∈ l, g.hu.frac c = 0 ∨ prec < g.hu.frac c) : glTotal c l = Spec.glacierIce c l := by
  have hp : (0 : K) < prec := by unfold prec; positivity
  unfold glTotal Spec.glacierIce
  congr 1
  apply List.map_congr_left
  intro g hg
  rcases hf g hg with h | h
  · simp [Spec.iceVolume, h]
  · rw [if_neg]
    · rfl
    · simp only [not_or, not_not]
      exact ⟨hc g hg, by simp only [nearlyZero, decide_eq_true_eq, not_le]; exact lt_of_lt_of_le h (le_abs_self _)⟩

/-- Consistent look-up tables and units of a delta-h action: positive areas, the glacier is not the generic cover,
table extents not altered by snapping, no volume where there is no area, and ice in every row but the last. -/
structure Spec.DeltaHTables (c : String) (n : ℕ) (l : List (GlUnit K)) : Prop where
  rows : 2 ≤ n
  area : ∀ g ∈ l, 0 < g.area
  covers : ∀ g ∈ l, c ∈ g.hu.covers ∧ g.hu.generic ≠ some c
  clean : ∀ g ∈ l, ∀ r < n, Spec.CleanFraction (g.tabArea r / g.area)
  vol : ∀ g ∈ l, ∀ r < n, g.tabArea r = 0 ∧ g.tabVol r = 0 ∨ prec < g.tabArea r
  rowSum : ∀ r < n - 1, (l.map fun g => g.tabVol r).sum ≠ 0

/-- The extents of the units are those of a row of the table. -/
def Spec.OnRow (c : String) (row : ℕ) (l : List (GlUnit K)) : Prop :=
  ∀ g ∈ l, g.hu.frac c * g.area = g.tabArea row

theorem forall₂_right {α β : Type} {R : α → β → Prop} {P : α → Prop} {Q : β → Prop} {l : List α} {l' : List β}
    (h : List.Forall₂ R l l') (hP : ∀ a ∈ l, P a) (hQ : ∀ a b, R a b → P a → Q b) : ∀ b ∈ l', Q b := by
  induction h with
  | nil => simp
  | cons h1 _ ih =>
    intro b hb
    rcases List.mem_cons.1 hb with rfl | hb
    · exact hQ _ _ h1 (hP _ (by simp))
    · exact ih (fun a ha => hP a (by simp [ha])) b hb

theorem forall₂_map_sum {α β : Type} {R : α → β → Prop} {F : α → K} {G : β → K} {l : List α} {l' : List β}
    (h : List.Forall₂ R l l') (hQ : ∀ a b, R a b → F a = G b) : (l.map F).sum = (l'.map G).sum := by
  induction h with
  | nil => rfl
  | cons h1 _ ih => simp [hQ _ _ h1, ih]

/-- **C38 (delta-h).** An application that succeeds keeps the total ice volume, moves the extents to the looked-up
row, and gives each unit the share of the ice that the row gives it; the conditions hold again for the next one. -/
theorem c38_deltah {c : String} {n last row : ℕ} {w0 : K} {l l' : List (GlUnit K)} (ht : Spec.DeltaHTables c n l)
    (h0 : 0 < w0) (hlast : last < n) (hon : Spec.OnRow c last l) (hpos : 0 ≤ Spec.glacierIce c l)
    (h : glDeltaH c n w0 last l = .ok (l', row)) :
    Spec.glacierIce c l' = Spec.glacierIce c l ∧ row = glRow n w0 (Spec.glacierIce c l) ∧ row < n ∧
    Spec.OnRow c row l' ∧ Spec.DeltaHTables c n l' ∧
    List.Forall₂ (fun g g' => g'.tabArea = g.tabArea ∧ g'.tabVol = g.tabVol ∧
      Spec.iceVolume c g'.area g'.hu * (l.map fun g => g.tabVol row).sum = Spec.glacierIce c l * g.tabVol row) l l' := by
  have hp : (0 : K) < prec := by unfold prec; positivity
  have hfr0 : ∀ g ∈ l, g.hu.frac c = 0 ∨ prec < g.hu.frac c := by
    intro g hg
    have ha := ht.area g hg
    have e : g.hu.frac c = g.tabArea last / g.area := by rw [← hon g hg]; field_simp
    rcases ht.clean g hg last hlast with h | h | h
    · left; rw [e, h]
    · right; rw [e, h]; unfold prec; norm_num
    · right; rw [e]; exact h.1
  have htot := glTotal_eq (fun g hg => (ht.covers g hg).1) hfr0
  unfold glDeltaH at h
  dsimp only at h
  rw [htot] at h
  set W := Spec.glacierIce c l with hW
  set R := glRow n w0 W with hR
  split at h
  · rename_i hRn
    split at h
    · cases h
    · rename_i l1 hl1
      split at h
      · cases h
      · rename_i l2 hl2
        have hh := Except.ok.inj h
        obtain rfl : l2 = l' := congrArg Prod.fst hh
        obtain rfl : R = row := congrArg Prod.snd hh
        have F1 : List.Forall₂ (fun g g' : GlUnit K => g'.area = g.area ∧ g'.tabArea = g.tabArea ∧
            g'.tabVol = g.tabVol ∧ g'.hu.covers = g.hu.covers ∧ g'.hu.frac c * g.area = g.tabArea R) l l1 := by
          by_cases hne : R ≠ last
          · rw [if_pos hne] at hl1
            exact glResizeAll_ok hl1 (fun g hg => (ht.covers g hg).2) ht.area (fun g hg => ht.clean g hg _ hRn)
          · rw [if_neg hne] at hl1
            cases hl1
            rw [List.forall₂_same]
            intro g hg
            refine ⟨rfl, rfl, rfl, rfl, ?_⟩
            rw [not_not.1 hne]; exact hon g hg
        have hon1 : ∀ g ∈ l1, g.hu.frac c * g.area = g.tabArea R :=
          forall₂_right (P := fun _ => True) F1 (fun _ _ => trivial) (fun a b hab _ => by
            rw [hab.1, hab.2.1]; exact hab.2.2.2.2)
        have hv1 : ∀ g ∈ l1, g.tabArea R = 0 ∧ g.tabVol R = 0 ∨ prec < g.tabArea R :=
          forall₂_right F1 (fun g hg => ht.vol g hg _ hRn) (fun a b hab h => by
            rw [hab.2.1, hab.2.2.1]; exact h)
        have F2 := glSpread_ok hl2 hv1 hon1
        have F : List.Forall₂ (fun g g' : GlUnit K => g'.area = g.area ∧ g'.tabArea = g.tabArea ∧
            g'.tabVol = g.tabVol ∧ g'.hu.covers = g.hu.covers ∧ g'.hu.frac c * g.area = g.tabArea R ∧
            Spec.iceVolume c g'.area g'.hu = W * (g.tabVol R / (l.map fun g => g.tabVol R).sum)) l l2 := by
          clear hl1 hl2 hon1 hv1
          have comp : ∀ {a b d : List (GlUnit K)} {S : K}, List.Forall₂ (fun g g' : GlUnit K => g'.area = g.area ∧
              g'.tabArea = g.tabArea ∧ g'.tabVol = g.tabVol ∧ g'.hu.covers = g.hu.covers ∧
              g'.hu.frac c * g.area = g.tabArea R) a b →
              List.Forall₂ (fun g g' => g'.area = g.area ∧ g'.tabArea = g.tabArea ∧ g'.tabVol = g.tabVol ∧
                g'.hu.covers = g.hu.covers ∧ g'.hu.frac c = g.hu.frac c ∧
                Spec.iceVolume c g'.area g'.hu = W * (g.tabVol R / S)) b d →
              List.Forall₂ (fun g g' : GlUnit K => g'.area = g.area ∧ g'.tabArea = g.tabArea ∧
                g'.tabVol = g.tabVol ∧ g'.hu.covers = g.hu.covers ∧ g'.hu.frac c * g.area = g.tabArea R ∧
                Spec.iceVolume c g'.area g'.hu = W * (g.tabVol R / S)) a d := by
            intro a b d S h1
            induction h1 generalizing d with
            | nil => intro h2; cases h2; exact .nil
            | cons x _ ih =>
              intro h2
              cases h2 with
              | cons y h2 =>
                refine .cons ⟨y.1.trans x.1, y.2.1.trans x.2.1, y.2.2.1.trans x.2.2.1, y.2.2.2.1.trans x.2.2.2.1,
                  ?_, ?_⟩ (ih h2)
                · rw [y.2.2.2.2.1]; exact x.2.2.2.2
                · rw [y.2.2.2.2.2, x.2.2.1]
          exact comp F1 F2
        have hb := c38_row_bounds n ht.rows w0 W h0 hpos
        -- the R has ice, or there is none left
        have hcase : (l.map fun g => g.tabVol R).sum ≠ 0 ∨ W = 0 := by
          rcases hpos.eq_or_lt with e | e
          · right; exact e.symm
          · left; exact ht.rowSum _ (hb.2.1 e)
        have hsum : ∀ (S : K), (l.map fun g => W * (g.tabVol R / S)).sum = W * ((l.map fun g => g.tabVol R).sum / S) := by
          intro S
          generalize l = l
          induction l with
          | nil => simp
          | cons g l ih => simp only [List.map_cons, List.sum_cons, ih]; ring
        refine ⟨?_, rfl, hRn, ?_, ?_, ?_⟩
        · unfold Spec.glacierIce
          rw [← forall₂_map_sum (F := fun g => W * (g.tabVol R / (l.map fun g => g.tabVol R).sum)) F
            (fun a b hab => hab.2.2.2.2.2.symm), hsum]
          rcases hcase with e | e
          · rw [div_self e, mul_one]
          · rw [e, zero_mul]
        · exact forall₂_right (P := fun _ => True) F (fun _ _ => trivial) (fun a b hab _ => by
            rw [hab.1, hab.2.1]; exact hab.2.2.2.2.1)
        · refine ⟨ht.rows, ?_, ?_, ?_, ?_, ?_⟩
          · exact forall₂_right F ht.area (fun a b hab h => by rw [hab.1]; exact h)
          · exact forall₂_right F ht.covers (fun a b hab h => by
              rw [hab.2.2.2.1, HU.generic_congr hab.2.2.2.1]; exact h)
          · exact forall₂_right F ht.clean (fun a b hab h => by rw [hab.1, hab.2.1]; exact h)
          · exact forall₂_right F ht.vol (fun a b hab h => by rw [hab.2.1, hab.2.2.1]; exact h)
          · intro r hr
            rw [← forall₂_map_sum (F := fun g => g.tabVol r) F (fun a b hab => by rw [hab.2.2.1])]
            exact ht.rowSum r hr
        · refine F.imp ?_
          intro a b hab
          refine ⟨hab.2.1, hab.2.2.1, ?_⟩
          rw [hab.2.2.2.2.2]
          rcases hcase with e | e
          · field_simp
          · rw [e]; simp
  · cases h

/-! ## Concrete cases -/

/-- One unit of 1000 m², a glacier over half of it with 1100 mm of ice; table with three rows. -/
def Demo.glUnit : GlUnit ℚ where
  area := 1000
  hu := { covers := ["open", "glacier"]
          frac := fun c => if c = "open" then 1/2 else 1/2
          slot := fun c r => if c = "glacier" ∧ r = .selfIce then some 500 else if r = .selfWater then some 0 else none }
  tabArea := fun r => if r = 0 then 500 else if r = 1 then 250 else 0
  tabVol := fun r => if r = 0 then 500 else if r = 1 then 200 else 0

/-- Area scaling with half of the ice left: row 1, extent 1/4, depth doubled. -/
example : ((Demo.glUnit.areaScaling "glacier" 3 500000).toOption.map fun v => (v.frac "glacier", v.depth "glacier" .selfIce))
    = some (1/4, 1000) := by decide +kernel

example : Demo.glUnit.hu.generic ≠ some "glacier" ∧ prec < Demo.glUnit.hu.frac "glacier" ∧
    prec < |Spec.iceVolume "glacier" Demo.glUnit.area Demo.glUnit.hu| := by decide +kernel

example : ∀ r < 3, Spec.CleanFraction (Demo.glUnit.tabArea r / Demo.glUnit.area) := by
  intro r hr
  interval_cases r
  · right; right; constructor <;> (simp [Demo.glUnit, prec]; try norm_num)
  · right; right; constructor <;> (simp [Demo.glUnit, prec]; try norm_num)
  · left; simp [Demo.glUnit]

/-- The tables of the example satisfy the conditions of the delta-h theorem, and the application succeeds. -/
example : Spec.DeltaHTables "glacier" 3 [Demo.glUnit] ∧ Spec.OnRow "glacier" 0 [Demo.glUnit] ∧
    (glDeltaH "glacier" 3 500000 0 [Demo.glUnit]).isOk = true := by
  refine ⟨⟨by norm_num, ?_, ?_, ?_, ?_, ?_⟩, ?_, ?_⟩
  · simp [Demo.glUnit]
  · simp [Demo.glUnit, HU.generic]
  · intro g hg r hr
    simp only [List.mem_singleton] at hg; subst hg
    interval_cases r
    · right; right; constructor <;> (simp [Demo.glUnit, prec]; try norm_num)
    · right; right; constructor <;> (simp [Demo.glUnit, prec]; try norm_num)
    · left; simp [Demo.glUnit]
  · intro g hg r hr
    simp only [List.mem_singleton] at hg; subst hg
    interval_cases r
    · right; simp [Demo.glUnit, prec]; norm_num
    · right; simp [Demo.glUnit, prec]; norm_num
    · left; simp [Demo.glUnit]
  · intro r hr
    interval_cases r <;> simp [Demo.glUnit]
  · simp [Spec.OnRow, Demo.glUnit]; norm_num
  · decide +kernel

/-- A table whose extent reaches zero before its last row makes area scaling divide by zero while ice is left. -/
theorem c38_area_scaling_zero_row :
    (match ({ Demo.glUnit with tabArea := fun r => if r = 0 then 500 else 0 } : GlUnit ℚ).areaScaling "glacier" 3 500000
      with | .error e => some e | .ok _ => none) = some .divZero := by decide +kernel

/-- The same for delta-h: the remaining ice is silently removed. -/
theorem c38_deltah_zero_row_loses :
    Spec.glacierIce "glacier" [Demo.glUnit] = 250000 ∧
    ((glDeltaH "glacier" 3 500000 0 [({ Demo.glUnit with
        tabArea := fun r => if r = 0 then 500 else 0, tabVol := fun r => if r = 0 then 500 else 0 } : GlUnit ℚ)]).toOption.map
      fun r => Spec.glacierIce "glacier" r.1) = some 0 := by decide +kernel

end HB
