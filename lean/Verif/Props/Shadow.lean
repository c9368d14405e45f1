import Verif.Spec.Shadow
import Mathlib.Tactic.Linarith
import Mathlib.Tactic.Ring
import Mathlib.Tactic.FieldSimp

/-! # C91: cast shadows -/

set_option linter.unusedSectionVars false

namespace HB.Shadow

variable {K : Type} [Field K] [LinearOrder K] [IsStrictOrderedRing K] [FloorRing K]

theorem mem_cells (n m : ℕ) (p : ℕ × ℕ) : p ∈ cells n m ↔ p.1 < n ∧ p.2 < m := by
  unfold cells
  rw [List.mem_flatMap]
  constructor
  · rintro ⟨r, hr, h⟩
    obtain ⟨c, hc, rfl⟩ := List.mem_map.1 h
    exact ⟨List.mem_range.1 hr, List.mem_range.1 hc⟩
  · rintro ⟨hr, hc⟩
    exact ⟨p.1, List.mem_range.2 hr, List.mem_map.2 ⟨p.2, List.mem_range.2 hc, rfl⟩⟩

omit [IsStrictOrderedRing K] [FloorRing K] in
theorem foldl_min_le (vs : List K) : ∀ v : K, vs.foldl min v ≤ v ∧ ∀ x ∈ vs, vs.foldl min v ≤ x := by
  induction vs with
  | nil => intro v; simp
  | cons a vs ih =>
    intro v
    rw [List.foldl_cons]
    obtain ⟨h1, h2⟩ := ih (min v a)
    refine ⟨h1.trans (min_le_left _ _), ?_⟩
    intro x hx
    rcases List.mem_cons.1 hx with rfl | hx
    · exact h1.trans (min_le_right _ _)
    · exact h2 x hx

theorem least_le (l : List K) (x : K) (h : x ∈ l) : least l ≤ x := by
  cases l with
  | nil => simp at h
  | cons v vs =>
    show vs.foldl min v ≤ x
    rcases List.mem_cons.1 h with rfl | h
    · exact (foldl_min_le vs x).1
    · exact (foldl_min_le vs v).2 x h

theorem rayId_eq (R : Rays K) (t : K) (n m : ℕ) (p : ℕ × ℕ) (hp : p ∈ cells n m) :
    rayId R t n m p = ⌊rawRay R t p - least ((cells n m).map (rawRay R t))⌋ + 1 := by
  unfold rayId trunc
  rw [if_pos]
  have := least_le _ _ (List.mem_map.2 ⟨p, hp, rfl⟩ : rawRay R t p ∈ (cells n m).map (rawRay R t))
  linarith

/-- Two cells on the same ray. -/
theorem same_ray (R : Rays K) (t : K) (n m : ℕ) (p q : ℕ × ℕ) (hp : p ∈ cells n m) (hq : q ∈ cells n m) (h : rayId R t n m p = rayId R t n m q) :
    |rawRay R t p - rawRay R t q| < 1 := by
  rw [rayId_eq R t n m p hp, rayId_eq R t n m q hq] at h
  have h' : ⌊rawRay R t p - least ((cells n m).map (rawRay R t))⌋ = ⌊rawRay R t q - least ((cells n m).map (rawRay R t))⌋ := by omega
  have := Int.abs_sub_lt_one_of_floor_eq_floor h'
  rwa [sub_sub_sub_cancel_right] at this

/-- A grid of rays that tells cells apart. -/
structure Apart (R : Rays K) (n m : ℕ) : Prop where
  inj : ∀ p q : ℕ × ℕ, p ∈ cells n m → q ∈ cells n m → R.ref p.1 p.2 = R.ref q.1 q.2 → R.base p.1 p.2 = R.base q.1 q.2 → p = q
  nonneg : ∀ p ∈ cells n m, 0 ≤ R.ref p.1 p.2

omit [IsStrictOrderedRing K] [FloorRing K] in
theorem rays_apart (n m : ℕ) (az : K) : Apart (rays n m az) n m := by
  constructor
  · intro p q hp hq h1 h2
    rw [mem_cells] at hp hq
    unfold rays at h1 h2
    split_ifs at h1 h2 <;> simp only [xv, yv, xvRev, yvRev] at h1 h2 <;> exact Prod.ext (by omega) (by omega)
  · intro p hp
    rw [mem_cells] at hp
    unfold rays
    split_ifs <;> simp only [xv, yv, xvRev, yvRev] <;> omega

/-- No two cells have the same place on a ray. -/
theorem place_inj (R : Rays K) (t : K) (n m : ℕ) (hR : Apart R n m) (p q : ℕ × ℕ) (hp : p ∈ cells n m) (hq : q ∈ cells n m)
    (h : rayId R t n m p = rayId R t n m q) (hr : R.ref p.1 p.2 = R.ref q.1 q.2) : p = q := by
  have h1 := same_ray R t n m p q hp hq h
  refine hR.inj p q hp hq hr ?_
  unfold rawRay at h1
  rw [hr] at h1
  have h2 : |((R.base p.1 p.2 - R.base q.1 q.2 : ℤ) : K)| < 1 := by
    push_cast
    have e : (R.base p.1 p.2 : K) - (R.ref q.1 q.2 : K) / t - ((R.base q.1 q.2 : K) - (R.ref q.1 q.2 : K) / t) = (R.base p.1 p.2 : K) - (R.base q.1 q.2 : K) := by ring
    rwa [e] at h1
  have h3 : |R.base p.1 p.2 - R.base q.1 q.2| < 1 := by exact_mod_cast h2
  have := Int.abs_lt_one_iff.1 h3
  omega

/-- What is stored at a place: the cell that has it. -/
theorem mapped_get (R : Rays K) (t tz px : K) (n m : ℕ) (dem : ℕ → ℕ → Option K) (hR : Apart R n m) (i j : ℤ) (x : Option K) (hx : x ≠ none) :
    mapped R t tz px n m dem i j = x ↔ ∃ p ∈ cells n m, rayId R t n m p = i ∧ R.ref p.1 p.2 = j ∧ tilted R t tz px dem p = x := by
  unfold mapped
  have key : ∀ (l : List (ℕ × ℕ)), (∀ p ∈ l, p ∈ cells n m) → ∀ a : ℤ → ℤ → Option K,
      ((∃ p ∈ l, rayId R t n m p = i ∧ R.ref p.1 p.2 = j) →
        ((l.foldl (fun a p => put a (rayId R t n m p) (R.ref p.1 p.2) (tilted R t tz px dem p)) a) i j = x ↔
          ∃ p ∈ l, rayId R t n m p = i ∧ R.ref p.1 p.2 = j ∧ tilted R t tz px dem p = x)) ∧
      ((¬ ∃ p ∈ l, rayId R t n m p = i ∧ R.ref p.1 p.2 = j) →
        (l.foldl (fun a p => put a (rayId R t n m p) (R.ref p.1 p.2) (tilted R t tz px dem p)) a) i j = a i j) := by
    intro l
    induction l with
    | nil => intro _ a; simp
    | cons q l ih =>
      intro hl a
      rw [List.foldl_cons]
      obtain ⟨i1, i2⟩ := ih (fun p hp => hl p (List.mem_cons_of_mem _ hp)) (put a (rayId R t n m q) (R.ref q.1 q.2) (tilted R t tz px dem q))
      constructor
      · rintro ⟨p, hp, hpi, hpj⟩
        by_cases hex : ∃ p ∈ l, rayId R t n m p = i ∧ R.ref p.1 p.2 = j
        · rw [i1 hex]
          constructor
          · rintro ⟨p, hp, h⟩; exact ⟨p, List.mem_cons_of_mem _ hp, h⟩
          · rintro ⟨p', hp', h1, h2, h3⟩
            rcases List.mem_cons.1 hp' with rfl | hp'
            · obtain ⟨p'', hp'', h4, h5⟩ := hex
              have : p'' = p' := place_inj R t n m hR _ _ (hl _ (List.mem_cons_of_mem _ hp'')) (hl _ (List.mem_cons_self ..)) (h4.trans h1.symm) (h5.trans h2.symm)
              subst this
              exact ⟨p'', hp'', h1, h2, h3⟩
            · exact ⟨p', hp', h1, h2, h3⟩
        · rw [i2 hex]
          rcases List.mem_cons.1 hp with rfl | hp
          · unfold put
            rw [if_pos ⟨hpi.symm, hpj.symm⟩]
            constructor
            · intro h; exact ⟨p, List.mem_cons_self .., hpi, hpj, h⟩
            · rintro ⟨p', hp', h1, h2, h3⟩
              rcases List.mem_cons.1 hp' with rfl | hp'
              · exact h3
              · exact absurd ⟨p', hp', h1, h2⟩ hex
          · exact absurd ⟨p, hp, hpi, hpj⟩ hex
      · intro hn
        rw [i2 (fun ⟨p, hp, h⟩ => hn ⟨p, List.mem_cons_of_mem _ hp, h⟩)]
        unfold put
        rw [if_neg]
        rintro ⟨h1, h2⟩
        exact hn ⟨q, List.mem_cons_self .., h1.symm, h2.symm⟩
  obtain ⟨k1, k2⟩ := key (cells n m) (fun p hp => hp) fun _ _ => none
  by_cases hex : ∃ p ∈ cells n m, rayId R t n m p = i ∧ R.ref p.1 p.2 = j
  · exact k1 hex
  · rw [k2 hex]
    constructor
    · intro h; exact absurd h.symm hx
    · rintro ⟨p, hp, h1, h2, _⟩; exact absurd ⟨p, hp, h1, h2⟩ hex

omit [Field K] [IsStrictOrderedRing K] [FloorRing K] in
theorem accumulated_lt (row : ℤ → Option K) (h : K) : ∀ j : ℕ, greater (accumulated row j) (some h) = true ↔ ∃ i : ℕ, i ≤ j ∧ ∃ v, row i = some v ∧ h < v := by
  intro j
  induction j with
  | zero =>
    constructor
    · intro hg
      refine ⟨0, le_refl _, ?_⟩
      simp only [accumulated] at hg
      cases hr : row 0 with
      | none => rw [hr] at hg; simp [greater] at hg
      | some v => rw [hr] at hg; exact ⟨v, by simpa using hr, by simpa [greater] using hg⟩
    · rintro ⟨i, hi, v, hv, hlt⟩
      have : i = 0 := by omega
      subst this
      simp only [accumulated]
      rw [show row 0 = some v by simpa using hv]
      simpa [greater] using hlt
  | succ j ih =>
    have step : greater (accumulated row (j + 1)) (some h) = true ↔ greater (accumulated row j) (some h) = true ∨ greater (row (j + 1)) (some h) = true := by
      simp only [accumulated]
      cases accumulated row j <;> cases row (j + 1) <;> simp [fmax, greater]
    rw [step, ih]
    constructor
    · rintro (⟨i, hi, h⟩ | h')
      · exact ⟨i, by omega, h⟩
      · refine ⟨j + 1, le_refl _, ?_⟩
        cases hr : row (j + 1) with
        | none => rw [hr] at h'; simp [greater] at h'
        | some v => rw [hr] at h'; exact ⟨v, by push_cast; exact hr, by simpa [greater] using h'⟩
    · rintro ⟨i, hi, v, hv, hlt⟩
      by_cases hij : i = j + 1
      · right
        subst hij
        push_cast at hv
        rw [hv]
        simpa [greater] using hlt
      · exact Or.inl ⟨i, by omega, v, hv, hlt⟩

/-- A cell is in the shadow when a cell nearer to the sun on its ray is higher after tilting. -/
theorem inShadow_iff (R : Rays K) (t tz px : K) (n m : ℕ) (dem : ℕ → ℕ → Option K) (hR : Apart R n m) (p : ℕ × ℕ) (hp : p ∈ cells n m) :
    inShadow R t tz px n m dem p = true ↔ ∃ h, tilted R t tz px dem p = some h ∧ ∃ q ∈ cells n m, rayId R t n m q = rayId R t n m p ∧
      R.ref q.1 q.2 < R.ref p.1 p.2 ∧ ∃ h', tilted R t tz px dem q = some h' ∧ h < h' := by
  have hself : ∀ h, mapped R t tz px n m dem (rayId R t n m p) (R.ref p.1 p.2) = some h ↔ tilted R t tz px dem p = some h := by
    intro h
    rw [mapped_get R t tz px n m dem hR _ _ _ (by simp)]
    constructor
    · rintro ⟨q, hq, h1, h2, h3⟩
      rwa [place_inj R t n m hR q p hq hp h1 h2] at h3
    · intro h; exact ⟨p, hp, rfl, rfl, h⟩
  unfold inShadow
  simp only
  cases ht : mapped R t tz px n m dem (rayId R t n m p) (R.ref p.1 p.2) with
  | none =>
    have hg : ∀ a : Option K, greater a none = false := by intro a; cases a <;> rfl
    rw [hg]
    constructor
    · intro h; simp at h
    · rintro ⟨h, hh, _⟩
      rw [(hself h).2 hh] at ht
      cases ht
  | some h =>
    rw [accumulated_lt]
    have hh := (hself h).1 ht
    have h0 := hR.nonneg p hp
    constructor
    · rintro ⟨i, hi, v, hv, hlt⟩
      rw [mapped_get R t tz px n m dem hR _ _ _ (by simp)] at hv
      obtain ⟨q, hq, h1, h2, h3⟩ := hv
      refine ⟨h, hh, q, hq, h1, ?_, v, h3, hlt⟩
      rcases lt_or_eq_of_le (show R.ref q.1 q.2 ≤ R.ref p.1 p.2 by omega) with hlt' | heq
      · exact hlt'
      · rw [place_inj R t n m hR q p hq hp h1 heq, hh] at h3
        cases h3
        exact absurd hlt (lt_irrefl _)
    · rintro ⟨h'', hh'', q, hq, h1, h2, v, hv, hlt⟩
      rw [hh] at hh''
      cases hh''
      refine ⟨(R.ref q.1 q.2).toNat, by omega, v, ?_, hlt⟩
      rw [mapped_get R t tz px n m dem hR _ _ _ (by simp)]
      have := hR.nonneg q hq
      exact ⟨q, hq, h1, by omega, hv⟩

end HB.Shadow
