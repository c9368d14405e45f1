import Verif.Model.Bricks
import Mathlib.Tactic.SplitIfs

set_option linter.unusedSectionVars false

/-!
# C04 (committing a step), C05 (save and reset), C53 (tolerance comparisons)
-/

namespace HB

variable {K P : Type*} [Field K] [LinearOrder K] [IsStrictOrderedRing K]

/-! ## C53 -/

/-- **C53** Exactly one of greater-than, nearly-equal, less-than holds. -/
theorem c53_trichotomy (a b tol : K) (ht : 0 ≤ tol) :
    (greaterThan a b tol = true ∧ nearlyEqual a b tol = false ∧ lessThan a b tol = false) ∨
    (greaterThan a b tol = false ∧ nearlyEqual a b tol = true ∧ lessThan a b tol = false) ∨
    (greaterThan a b tol = false ∧ nearlyEqual a b tol = false ∧ lessThan a b tol = true) := by
  simp only [greaterThan, nearlyEqual, lessThan, decide_eq_true_eq, decide_eq_false_iff_not, abs_le,
    not_and_or, not_le, not_lt, gt_iff_lt]
  by_cases h1 : b + tol < a
  · left; exact ⟨h1, by right; linarith, by linarith⟩
  · by_cases h2 : a < b - tol
    · right; right; exact ⟨by linarith, by left; linarith, h2⟩
    · right; left; exact ⟨by linarith, ⟨by linarith, by linarith⟩, by linarith⟩

/-- **C53** Nearly-equal is reflexive and symmetric; `NearlyZero` is nearly-equal to zero; the
or-equal variants are the negations of the opposite strict ones. -/
theorem c53_coherent (a b tol : K) (ht : 0 ≤ tol) :
    nearlyEqual a a tol = true ∧ nearlyEqual a b tol = nearlyEqual b a tol ∧
    nearlyZero a tol = nearlyEqual a 0 tol ∧
    greaterThanOrEqual a b tol = !lessThan a b tol ∧
    lessThanOrEqual a b tol = !greaterThan a b tol ∧
    greaterThan a b tol = lessThan b a tol := by
  refine ⟨by simp [nearlyEqual, ht], by simp [nearlyEqual, abs_sub_comm], by
    simp [nearlyEqual, nearlyZero], ?_, ?_, ?_⟩
  · simp only [greaterThanOrEqual, lessThan, ge_iff_le]
    by_cases h : a < b - tol
    · simp [h, not_le.mpr h]
    · simp only [h, decide_false, Bool.not_false, decide_eq_true_eq]; exact not_lt.mp h
  · simp only [lessThanOrEqual, greaterThan, gt_iff_lt]
    by_cases h : b + tol < a
    · simp [h, not_le.mpr h]
    · simp only [h, decide_false, Bool.not_false, decide_eq_true_eq]; exact not_lt.mp h
  · simp only [greaterThan, lessThan, decide_eq_decide, gt_iff_lt]
    constructor <;> intro h <;> linarith

/-- With tolerance zero the comparisons are the exact ones. -/
theorem c53_zero_tolerance (a b : K) :
    (nearlyEqual a b 0 = true ↔ a = b) ∧ (greaterThan a b 0 = true ↔ a > b) ∧
    (lessThan a b 0 = true ↔ a < b) := by
  refine ⟨?_, by simp [greaterThan], by simp [lessThan]⟩
  simp only [nearlyEqual, decide_eq_true_eq]
  rw [abs_nonpos_iff, sub_eq_zero]

/-- Witness: the three cases occur with the code's default tolerance. -/
example : greaterThan (1:ℚ) 0 prec = true ∧ nearlyEqual (1/10^9 : ℚ) 0 prec = true ∧
    lessThan (-1:ℚ) 0 prec = true := by decide +kernel

/-! ## C04 -/

/-- **C04** Committing: pending changes are cleared; the new content is the exact sum, except that a sum
within 1e-8 of zero or below becomes exactly zero; it is never negative unless the storage allows it. -/
theorem c04_commit (c : Cont K) (hf : c.infinite = false) :
    c.finalize.dyn = 0 ∧ c.finalize.stat = 0 ∧
    (c.allowNeg = true → c.finalize.content = c.content + c.dyn + c.stat) ∧
    (c.allowNeg = false → c.finalize.content =
      if c.content + c.dyn + c.stat ≤ prec then 0 else c.content + c.dyn + c.stat) := by
  have hp := prec_pos (K := K)
  unfold Cont.finalize
  rw [hf]
  simp only [Bool.false_eq_true, if_false, nearlyZero, lessThan, decide_eq_true_eq, zero_sub]
  have e : c.content + (c.dyn + c.stat) = c.content + c.dyn + c.stat := by ring
  rw [e]
  by_cases ha : c.allowNeg = true
  · simp [ha]
  · simp only [ha, if_false]
    by_cases h1 : |c.content + c.dyn + c.stat| ≤ prec
    · have h2 := (abs_le.mp h1).2
      simp [h1, h2]
    · by_cases h2 : c.content + c.dyn + c.stat < -prec
      · have h3 : c.content + c.dyn + c.stat ≤ prec := by linarith
        simp [h1, h2, h3]
      · have h3 : ¬ c.content + c.dyn + c.stat ≤ prec := by
          intro h; exact h1 (abs_le.mpr ⟨not_lt.mp h2, h⟩)
        simp [h1, h2, h3]

/-- **C04** Visible content is never negative after a commit. -/
theorem c04_nonneg (c : Cont K) (hf : c.infinite = false) (ha : c.allowNeg = false) :
    0 ≤ c.finalize.content ∧ (c.finalize.content = 0 ∨ prec < c.finalize.content) := by
  rw [(c04_commit c hf).2.2.2 ha]
  split
  · simp
  · rename_i h
    exact ⟨le_trans prec_nonneg (not_le.mp h).le, Or.inr (not_le.mp h)⟩

/-- **C04** The committed content differs from the exact sum by at most 1e-8 whenever the exact sum is
not below -1e-8. -/
theorem c04_error (c : Cont K) (hf : c.infinite = false)
    (h : c.allowNeg = true ∨ -prec ≤ c.content + c.dyn + c.stat) :
    |c.finalize.content - (c.content + c.dyn + c.stat)| ≤ prec := by
  by_cases ha : c.allowNeg = true
  · rw [(c04_commit c hf).2.2.1 ha]; simp [prec_nonneg]
  · have ha' : c.allowNeg = false := by simpa using ha
    rw [(c04_commit c hf).2.2.2 ha']
    have hlow := h.resolve_left ha
    split
    · rename_i h1
      rw [zero_sub, abs_neg]; exact abs_le.mpr ⟨hlow, h1⟩
    · simp [prec_nonneg]

theorem finalize_static (c : Cont K) : c.finalize.init = c.init ∧ c.finalize.cap = c.cap ∧
    c.finalize.infinite = c.infinite ∧ c.finalize.allowNeg = c.allowNeg := by
  unfold Cont.finalize
  dsimp only
  split_ifs <;> exact ⟨rfl, rfl, rfl, rfl⟩

/-- **C04** Infinite storages are unaffected; committing twice is the same as committing once. -/
theorem c04_infinite (c : Cont K) (hf : c.infinite = true) : c.finalize = c := by
  unfold Cont.finalize; simp [hf]

theorem c04_idempotent (c : Cont K) : c.finalize.finalize = c.finalize := by
  by_cases hf : c.infinite = true
  · rw [c04_infinite c hf, c04_infinite c hf]
  have hf' : c.infinite = false := by simpa using hf
  obtain ⟨_, _, hinfE, hneg⟩ := finalize_static c
  obtain ⟨hinit, hcap, hinf2, hneg2⟩ := finalize_static c.finalize
  have hinf : c.finalize.infinite = false := by rw [hinfE]; exact hf'
  have h1 := c04_commit c hf'
  have h2 := c04_commit c.finalize hinf
  have hc : c.finalize.finalize.content = c.finalize.content := by
    by_cases ha : c.allowNeg = true
    · rw [h2.2.2.1 (by rw [hneg]; exact ha), h1.1, h1.2.1]; ring
    · have ha' : c.allowNeg = false := by simpa using ha
      rw [h2.2.2.2 (by rw [hneg]; exact ha'), h1.1, h1.2.1, add_zero, add_zero]
      rcases (c04_nonneg c hf' ha').2 with h0 | h0
      · rw [h0]; simp
      · simp [not_le.mpr h0]
  have ext : ∀ x y : Cont K, x.content = y.content → x.dyn = y.dyn → x.stat = y.stat →
      x.init = y.init → x.cap = y.cap → x.infinite = y.infinite → x.allowNeg = y.allowNeg → x = y := by
    rintro ⟨⟩ ⟨⟩ h1 h2 h3 h4 h5 h6 h7; simp_all
  exact ext _ _ hc (by rw [h2.1, h1.1]) (by rw [h2.2.1, h1.2.1]) hinit hcap hinf2 hneg2

/-- Witness: a store that ends at 3 mm, one that ends at 5e-9, one overdrawn (set to zero). -/
example : ({ content := 5, dyn := -3, stat := 1, init := 0 } : Cont ℚ).finalize.content = 3 ∧
    ({ content := 5, dyn := -5, stat := 1/(2*10^8), init := 0 } : Cont ℚ).finalize.content = 0 ∧
    ({ content := 5, dyn := -7, stat := 0, init := 0 } : Cont ℚ).finalize.content = 0 := by
  decide +kernel

/-! ## C05 -/

theorem finalize_init (c : Cont K) : c.finalize.init = c.init := (finalize_static c).1

theorem contOp_init (c : Cont K) (o : ContOp K) : (o.run c).init = c.init := by
  cases o with
  | finalize => exact finalize_init c
  | update v =>
    simp only [ContOp.run, Cont.updateContent]
    by_cases h : c.infinite = true <;> simp [h]
  | scatterDyn x => rfl
  | _ => simp only [ContOp.run, Cont.addDyn, Cont.subDyn, Cont.addStat]; split <;> rfl

/-- **C05 (one storage)** Whatever happens to a storage after its state was saved, a reset restores
exactly the saved content with nothing pending. -/
theorem c05_container (c : Cont K) (ops : List (ContOp K)) :
    (ops.foldl ContOp.run c.save).reset.content = c.content ∧
    (ops.foldl ContOp.run c.save).reset.dyn = 0 ∧
    (ops.foldl ContOp.run c.save).reset.stat = 0 := by
  have h : ∀ d : Cont K, (ops.foldl ContOp.run d).init = d.init := by
    induction ops with
    | nil => intro d; rfl
    | cons o ops ih => intro d; rw [List.foldl_cons, ih, contOp_init]
  refine ⟨?_, rfl, rfl⟩
  change (ops.foldl ContOp.run c.save).init = c.content
  rw [h]; rfl

/-- The part of a brick's state that is water, snow, ice or extent and exists for its kind. -/
def Spec.visible (b : BrickSt K P) : K × Option K × Option K × Option K :=
  (b.water.content,
   if b.kind = .snowpack then some b.snow.content else none,
   if b.kind = .glacier then some b.ice.content else none,
   if b.kind = .glacier ∨ b.kind = .genericLandCover then some b.frac else none)

/-- Nothing pending in the containers that exist for the brick's kind. -/
def Spec.settled (b : BrickSt K P) : Prop :=
  b.water.dyn = 0 ∧ b.water.stat = 0 ∧
  (b.kind = .snowpack → b.snow.dyn = 0 ∧ b.snow.stat = 0) ∧
  (b.kind = .glacier → b.ice.dyn = 0 ∧ b.ice.stat = 0)

/-- **C05** For every brick kind and every history between the save and the reset: contents and extent
are back to the saved ones, with nothing pending. -/
theorem c05_save_reset (resetP : P → P) (b : BrickSt K P) (ops : List (BrickOp K P)) :
    Spec.visible ((ops.foldl BrickOp.run b.save).reset resetP) = Spec.visible b ∧
    Spec.settled ((ops.foldl BrickOp.run b.save).reset resetP) := by
  have inv : ∀ d : BrickSt K P,
      (ops.foldl BrickOp.run d).kind = d.kind ∧
      (ops.foldl BrickOp.run d).water.init = d.water.init ∧
      (ops.foldl BrickOp.run d).snow.init = d.snow.init ∧
      (ops.foldl BrickOp.run d).ice.init = d.ice.init ∧
      (ops.foldl BrickOp.run d).frac0 = d.frac0 := by
    induction ops with
    | nil => intro d; exact ⟨rfl, rfl, rfl, rfl, rfl⟩
    | cons o ops ih =>
      intro d
      rw [List.foldl_cons]
      obtain ⟨h1, h2, h3, h4, h5⟩ := ih (o.run d)
      rw [h1, h2, h3, h4, h5]
      cases o <;> simp [BrickOp.run, contOp_init]
  obtain ⟨h1, h2, h3, h4, h5⟩ := inv b.save
  have hk : b.save.kind = b.kind := by unfold BrickSt.save; split <;> rfl
  rw [hk] at h1
  generalize ops.foldl BrickOp.run b.save = e at *
  unfold Spec.visible Spec.settled BrickSt.reset
  rw [h1]
  cases hb : b.kind <;>
    simp only [BrickSt.save, hb, Cont.save] at h2 h3 h4 h5 <;>
    simp [Cont.reset, h1, h2, h3, h4, h5, hb]

/-- Witness: a glacier whose ice melted and whose extent shrank gets both back. -/
example : Spec.visible (P := Unit) (([.ice (.subDyn 30), .ice .finalize, .setFraction (1/10)].foldl BrickOp.run
    (BrickSt.save (K := ℚ) (P := Unit)
      ⟨.glacier, ⟨1,0,0,0,none,false,false⟩, ⟨0,0,0,0,none,false,false⟩,
       ⟨100,0,0,0,none,false,false⟩, 1/2, 1, []⟩)).reset id) = (1, none, some 100, some (1/2)) := by
  decide +kernel

/-- **C04 (setting the content).**  Setting the content of a finite store between two steps makes it exactly that value for the
next step, whatever it was before; an infinite store refuses. -/
theorem c04_set (c : Cont K) (v : K) :
    (c.infinite = true → ∃ e, c.updateContent v = .error e) ∧
    (c.infinite = false → c.dyn = 0 → c.stat = 0 → prec < v →
      ∃ c', c.updateContent v = .ok c' ∧ c'.withoutChanges = some v ∧ c'.finalize.withoutChanges = some v ∧
        c'.cap = c.cap ∧ c'.init = c.init) := by
  constructor
  · intro h; exact ⟨.infiniteStorage, by simp [Cont.updateContent, h]⟩
  · intro h hd hs hv
    refine ⟨{ c with content := v }, by simp [Cont.updateContent, h], by simp [Cont.withoutChanges, h], ?_, rfl, rfl⟩
    have h1 := (c04_commit ({ c with content := v }) h)
    have h2 := (finalize_static ({ c with content := v })).2.2.1
    have h3 : (Cont.finalize { c with content := v }).content = v := by
      by_cases ha : c.allowNeg = true
      · rw [h1.2.2.1 ha]; simp [hd, hs]
      · rw [h1.2.2.2 (by simpa using ha)]; simp [hd, hs, not_le.mpr hv]
    simp only [Cont.withoutChanges]
    rw [h2, h3]; simp [h]

end HB
