import Verif.Spec.Regrid
import Mathlib.Tactic.FieldSimp
import Mathlib.Tactic.Linarith
import Mathlib.Tactic.Ring
import Mathlib.Algebra.BigOperators.Ring.Finset
import Mathlib.Algebra.Order.BigOperators.Group.List

/-! # C89: regridding, threads -/

set_option linter.unusedSectionVars false

namespace HB.Regrid

open HB.Spec.Regrid

variable {K : Type} [Field K] [LinearOrder K] [IsStrictOrderedRing K]

theorem cellsOf_eq (pixels : List (ℤ × Option ℕ)) (uid : ℤ) : cellsOf pixels uid = pixelsOf pixels uid := by
  unfold cellsOf pixelsOf
  induction pixels with
  | nil => rfl
  | cons p l ih =>
    rw [List.filterMap_cons, ih]
    by_cases h : p.1 = uid
    · rw [if_pos h, List.filter_cons_of_pos (by simpa using h), List.filterMap_cons]
    · rw [if_neg h, List.filter_cons_of_neg (by simpa using h)]

theorem count_sum (n : ℕ) (f : ℕ → K) : ∀ cells : List ℕ, (∀ c ∈ cells, c < n) →
    ∑ c ∈ Finset.range n, f c * (cells.count c : K) = (cells.map f).sum := by
  intro cells
  induction cells with
  | nil => intro _; simp
  | cons x l ih =>
    intro h
    rw [List.map_cons, List.sum_cons, ← ih fun c hc => h c (List.mem_cons_of_mem _ hc)]
    have e : ∀ c ∈ Finset.range n, f c * ((x :: l).count c : K) = (if c = x then f x else 0) + f c * (l.count c : K) := by
      intro c _
      rw [List.count_cons]
      by_cases hc : c = x
      · subst hc; simp; ring
      · have : ¬ (x == c) = true := by simpa using fun e => hc e.symm
        rw [if_neg hc]; simp [this]
    rw [Finset.sum_congr rfl e, Finset.sum_add_distrib, Finset.sum_ite_eq', if_pos (Finset.mem_range.2 (h x (List.mem_cons_self ..)))]

theorem weighted_mean (n : ℕ) (f : ℕ → K) (cells : List ℕ) (h : ∀ c ∈ cells, c < n) :
    ∑ c ∈ Finset.range n, f c * weight cells c = pixelMean cells f := by
  unfold weight pixelMean
  rw [← count_sum n f cells h, div_eq_mul_inv, Finset.sum_mul]
  apply Finset.sum_congr rfl
  intro c _
  rw [div_eq_mul_inv, mul_assoc]

/-- **C89 (weights)**: the weights of a unit are not negative and sum to one. -/
theorem c89_weights (n : ℕ) (cells : List ℕ) (h : ∀ c ∈ cells, c < n) (h0 : cells ≠ []) :
    (∀ c, 0 ≤ (weight cells c : K)) ∧ ∑ c ∈ Finset.range n, (weight cells c : K) = 1 := by
  constructor
  · intro c; unfold weight; positivity
  · have := weighted_mean n (fun _ => (1 : K)) cells h
    simp only [one_mul] at this
    rw [this]
    unfold pixelMean
    have hl : (cells.length : K) ≠ 0 := by
      have := List.length_pos_of_ne_nil h0
      exact_mod_cast this.ne'
    rw [List.map_const', List.sum_replicate, nsmul_eq_mul, mul_one, div_self hl]

theorem plain_mean (d : Data K) (cells : List ℕ) (h : ∀ c ∈ cells, c < d.nCells) (t : ℕ) :
    plainValue d cells t = pixelMean cells fun c => (d.value t c).getD 0 := by
  rw [← weighted_mean d.nCells _ cells h]
  unfold plainValue
  apply Finset.sum_congr rfl
  intro c _
  cases d.value t c with
  | none => simp
  | some v => rfl

theorem weight_zero (cells : List ℕ) (c : ℕ) (h : ¬ 0 < (weight cells c : K)) : (weight cells c : K) = 0 := by
  have : 0 ≤ (weight cells c : K) := by unfold weight; positivity
  exact le_antisymm (not_lt.1 h) this

theorem gradient_mean (type : String) (d : Data K) (r : Relief K) (cells : List ℕ) (h : ∀ c ∈ cells, c < d.nCells) (u t : ℕ)
    (ht : type = "additive" ∨ type = "multiplicative") :
    gradientValue type d r cells u t = some (pixelMean cells fun c => ((corrected type d r u t c).bind id).getD 0) := by
  unfold gradientValue
  rw [if_pos ht, ← weighted_mean d.nCells _ cells h, Finset.sum_filter]
  congr 1
  apply Finset.sum_congr rfl
  intro c _
  by_cases hw : 0 < (weight cells c : K)
  · rw [if_pos hw]
    cases (corrected type d r u t c).bind id with
    | none => simp
    | some v => rfl
  · rw [if_neg hw, weight_zero cells c hw, mul_zero]

/-! ## Threads -/

/-- The rows of the blocks cover the array. -/
theorem block_of (nt nData size timeLen t : ℕ) (hs : 0 < size) (ht : t < nt) (hd : t < nData) (hl : t < timeLen) :
    t / size < nBlocks timeLen size ∧ blockRows nt nData size (t / size) t = true := by
  have h1 : t / size * size ≤ t := Nat.div_mul_le_self t size
  have h2 : t < (t / size + 1) * size := by
    have := Nat.lt_div_mul_add hs (a := t)
    rw [Nat.add_mul, Nat.one_mul]; exact this
  constructor
  · unfold nBlocks
    have : t / size ≤ (timeLen + size - 1) / size := Nat.div_le_div_right (by omega)
    omega
  · unfold blockRows
    rw [decide_eq_true_eq]
    refine ⟨by omega, h1, ?_⟩
    rw [Nat.lt_min, Nat.lt_min]
    exact ⟨⟨h2, ht⟩, hd⟩

theorem pool_get (how : How K) (d : Data K) (cells : ℕ → List ℕ) (nt size : ℕ) (t u : ℕ) (v : K) (hv : value how d (cells u) u t = some v) :
    ∀ (order : List (ℕ × ℕ)) (s : ℕ → ℕ → K), (s t u = v ∨ ∃ p ∈ order, u = p.2 ∧ blockRows nt d.nTime size p.1 t = true) →
    (order.foldl (assign how d cells nt size) s) t u = v := by
  intro order
  induction order with
  | nil =>
    rintro s (h | ⟨p, hp, _⟩)
    · exact h
    · simp at hp
  | cons p l ih =>
    intro s h
    rw [List.foldl_cons]
    apply ih
    by_cases hp : u = p.2 ∧ blockRows nt d.nTime size p.1 t = true
    · left
      unfold assign
      rw [if_pos hp, hv]; rfl
    · rcases h with h | ⟨p', hp', hh⟩
      · left
        unfold assign
        rw [if_neg hp]; exact h
      · rcases List.mem_cons.1 hp' with rfl | hp'
        · exact absurd hh hp
        · exact Or.inr ⟨p', hp', hh⟩

theorem pool_complete (how : How K) (d : Data K) (cells : ℕ → List ℕ) (nt size units timeLen : ℕ) (hs : 0 < size) (order : List (ℕ × ℕ))
    (ho : Complete (nBlocks timeLen size) units order) (t u : ℕ) (ht : t < nt) (hd : t < d.nTime) (hl : t < timeLen) (hu : u < units) (v : K)
    (hv : value how d (cells u) u t = some v) : runPool how d cells nt size order t u = v := by
  unfold runPool
  apply pool_get how d cells nt size t u v hv
  right
  obtain ⟨h1, h2⟩ := block_of nt d.nTime size timeLen t hs ht hd hl
  exact ⟨_, ho.1 _ h1 u hu, rfl, h2⟩

theorem unitCells_ok (pixels : List (ℤ × Option ℕ)) (ids : List ℤ) (cells : List (List ℕ)) (h : unitCells pixels ids = .ok cells) (u : ℕ) (uid : ℤ)
    (hu : ids[u]? = some uid) : cells.getD u [] = pixelsOf pixels uid ∧ pixelsOf pixels uid ≠ [] := by
  unfold unitCells at h
  split at h
  · cases h
  · rename_i hn
    cases h
    constructor
    · rw [List.getD_eq_getElem?_getD, List.getElem?_map, hu]
      exact cellsOf_eq pixels uid
    · intro h0
      apply hn
      rw [List.any_eq_true]
      exact ⟨uid, List.mem_of_getElem? hu, by rw [cellsOf_eq, h0]; rfl⟩

theorem checkTimes_ok (time file axis : List ℤ) (h : checkTimes time file = .ok axis) :
    axis = (if time = [] then file else time) ∧ axis.length = file.length ∧ axis.head? = file.head? ∧ axis.getLast? = file.getLast? := by
  unfold checkTimes at h
  have e : (if time.isEmpty = true then file else time) = (if time = [] then file else time) := by
    cases time <;> rfl
  simp only [e] at h
  generalize (if time = [] then file else time) = a at h
  by_cases h1 : a.length ≠ file.length
  · rw [if_pos h1] at h; cases h
  rw [if_neg h1] at h
  by_cases h2 : a.head? ≠ file.head?
  · rw [if_pos h2] at h; cases h
  rw [if_neg h2] at h
  by_cases h3 : a.getLast? ≠ file.getLast?
  · rw [if_pos h3] at h; cases h
  rw [if_neg h3] at h
  cases h
  exact ⟨rfl, not_not.1 h1, not_not.1 h2, not_not.1 h3⟩

theorem regrid_ok {how : How K} {d : Data K} {pixels : List (ℤ × Option ℕ)} {ids time file : List ℤ} {size : ℕ} {order : List (ℕ × ℕ)}
    {axis : List ℤ} {out : ℕ → ℕ → K} (h : regrid how d pixels ids time file size order = .ok (axis, out)) :
    checkTimes time file = .ok axis ∧ ∃ cells, unitCells pixels ids = .ok cells ∧ out = runPool how d (fun u => cells.getD u []) axis.length size order := by
  unfold regrid at h
  cases hc : checkTimes time file with
  | error e => rw [hc] at h; cases h
  | ok a =>
    rw [hc] at h
    simp only at h
    cases hu : unitCells pixels ids with
    | error e => rw [hu] at h; cases h
    | ok cells =>
      rw [hu] at h
      cases h
      exact ⟨rfl, cells, rfl, rfl⟩

/-- **C89 (mean over the unit, whatever the threads do)**: after regridding, with the blocks processed in any order, the value of a unit at a time is
the mean over its pixels of the data at that time, whatever the size of the blocks. -/
theorem c89_plain (d : Data K) (pixels : List (ℤ × Option ℕ)) (ids time file : List ℤ) (size : ℕ) (order : List (ℕ × ℕ)) (axis : List ℤ) (out : ℕ → ℕ → K)
    (h : regrid .plain d pixels ids time file size order = .ok (axis, out)) (hs : 0 < size) (ho : Complete (nBlocks file.length size) ids.length order)
    (hp : ∀ p ∈ pixels, ∀ c, p.2 = some c → c < d.nCells) (hn : d.nTime = file.length) (t u : ℕ) (uid : ℤ) (ht : t < file.length) (hu : ids[u]? = some uid)
    (f : ℕ → K) (hf : ∀ c ∈ pixelsOf pixels uid, d.value t c = some (f c)) :
    pixelsOf pixels uid ≠ [] ∧ out t u = pixelMean (pixelsOf pixels uid) f := by
  obtain ⟨h1, cells, h2, rfl⟩ := regrid_ok h
  obtain ⟨_, hlen, _, _⟩ := checkTimes_ok _ _ _ h1
  obtain ⟨hc, hne⟩ := unitCells_ok _ _ _ h2 u uid hu
  refine ⟨hne, ?_⟩
  have hcell : ∀ c ∈ pixelsOf pixels uid, c < d.nCells := by
    intro c hc
    unfold pixelsOf at hc
    obtain ⟨p, hp', he⟩ := List.mem_filterMap.1 hc
    exact hp p (List.mem_filter.1 hp').1 c he
  apply pool_complete .plain d _ _ size ids.length file.length hs order ho t u (by omega) (by omega) ht (List.getElem?_eq_some_iff.1 hu).1
  show some (plainValue d (cells.getD u []) t) = _
  rw [hc, plain_mean d _ hcell]
  congr 1
  unfold pixelMean
  congr 2
  apply List.map_congr_left
  intro c hc
  rw [hf c hc]; rfl

/-- **C89 (elevation, additive)**: with additive gradients, each pixel is corrected for the height of the unit over its data cell. -/
theorem c89_additive (d : Data K) (r : Relief K) (pixels : List (ℤ × Option ℕ)) (ids time file : List ℤ) (size : ℕ) (order : List (ℕ × ℕ)) (axis : List ℤ)
    (out : ℕ → ℕ → K) (h : regrid (.gradient "additive" r) d pixels ids time file size order = .ok (axis, out)) (hs : 0 < size)
    (ho : Complete (nBlocks file.length size) ids.length order) (hp : ∀ p ∈ pixels, ∀ c, p.2 = some c → c < d.nCells) (hn : d.nTime = file.length)
    (t u : ℕ) (uid : ℤ) (ht : t < file.length) (hu : ids[u]? = some uid) (f g z : ℕ → K)
    (hf : ∀ c ∈ pixelsOf pixels uid, d.value t c = some (f c) ∧ r.grad t c = some (g c) ∧ r.dem c = some (z c)) :
    out t u = pixelMean (pixelsOf pixels uid) fun c => f c + g c * (r.elev u - z c) := by
  obtain ⟨h1, cells, h2, rfl⟩ := regrid_ok h
  obtain ⟨_, hlen, _, _⟩ := checkTimes_ok _ _ _ h1
  obtain ⟨hc, hne⟩ := unitCells_ok _ _ _ h2 u uid hu
  have hcell : ∀ c ∈ pixelsOf pixels uid, c < d.nCells := by
    intro c hc
    unfold pixelsOf at hc
    obtain ⟨p, hp', he⟩ := List.mem_filterMap.1 hc
    exact hp p (List.mem_filter.1 hp').1 c he
  apply pool_complete _ d _ _ size ids.length file.length hs order ho t u (by omega) (by omega) ht (List.getElem?_eq_some_iff.1 hu).1
  show gradientValue "additive" d r (cells.getD u []) u t = _
  rw [hc, gradient_mean "additive" d r _ hcell u t (Or.inl rfl)]
  congr 1
  unfold pixelMean
  congr 2
  apply List.map_congr_left
  intro c hc
  obtain ⟨h3, h4, h5⟩ := hf c hc
  unfold corrected heightOver
  rw [if_pos rfl, h3, h4, h5]; rfl

/-- **C89 (elevation, multiplicative)**: with multiplicative gradients, each pixel is multiplied by one plus gradient times height, never by less than
zero: data that are not negative stay so. -/
theorem c89_multiplicative (d : Data K) (r : Relief K) (pixels : List (ℤ × Option ℕ)) (ids time file : List ℤ) (size : ℕ) (order : List (ℕ × ℕ)) (axis : List ℤ)
    (out : ℕ → ℕ → K) (h : regrid (.gradient "multiplicative" r) d pixels ids time file size order = .ok (axis, out)) (hs : 0 < size)
    (ho : Complete (nBlocks file.length size) ids.length order) (hp : ∀ p ∈ pixels, ∀ c, p.2 = some c → c < d.nCells) (hn : d.nTime = file.length)
    (t u : ℕ) (uid : ℤ) (ht : t < file.length) (hu : ids[u]? = some uid) (f g z : ℕ → K)
    (hf : ∀ c ∈ pixelsOf pixels uid, d.value t c = some (f c) ∧ r.grad t c = some (g c) ∧ r.dem c = some (z c)) :
    out t u = pixelMean (pixelsOf pixels uid) (fun c => f c * max 0 (1 + g c * (r.elev u - z c))) ∧
      ((∀ c ∈ pixelsOf pixels uid, 0 ≤ f c) → 0 ≤ out t u) := by
  have key : out t u = pixelMean (pixelsOf pixels uid) (fun c => f c * max 0 (1 + g c * (r.elev u - z c))) := by
    obtain ⟨h1, cells, h2, rfl⟩ := regrid_ok h
    obtain ⟨_, hlen, _, _⟩ := checkTimes_ok _ _ _ h1
    obtain ⟨hc, hne⟩ := unitCells_ok _ _ _ h2 u uid hu
    have hcell : ∀ c ∈ pixelsOf pixels uid, c < d.nCells := by
      intro c hc
      unfold pixelsOf at hc
      obtain ⟨p, hp', he⟩ := List.mem_filterMap.1 hc
      exact hp p (List.mem_filter.1 hp').1 c he
    apply pool_complete _ d _ _ size ids.length file.length hs order ho t u (by omega) (by omega) ht (List.getElem?_eq_some_iff.1 hu).1
    show gradientValue "multiplicative" d r (cells.getD u []) u t = _
    rw [hc, gradient_mean "multiplicative" d r _ hcell u t (Or.inr rfl)]
    congr 1
    unfold pixelMean
    congr 2
    apply List.map_congr_left
    intro c hc
    obtain ⟨h3, h4, h5⟩ := hf c hc
    unfold corrected heightOver
    rw [if_neg (by decide), if_pos rfl, h3, h4, h5]
    show f c * (1 + _) = _
    congr 1
    simp only
    split
    · rename_i hlt
      rw [max_eq_left (by linarith)]; ring
    · rename_i hlt
      rw [max_eq_right (by linarith)]
  refine ⟨key, fun h0 => ?_⟩
  rw [key]
  unfold pixelMean
  apply div_nonneg _ (by positivity)
  apply List.sum_nonneg
  intro x hx
  obtain ⟨c, hc, rfl⟩ := List.mem_map.1 hx
  exact mul_nonneg (h0 c hc) (le_max_left _ _)

/-- **C89 (between the data)**: the mean lies between the smallest and the largest contribution; a constant field gives the constant. -/
theorem c89_between (cells : List ℕ) (h0 : cells ≠ []) (f : ℕ → K) (lo hi : K) (h : ∀ c ∈ cells, lo ≤ f c ∧ f c ≤ hi) :
    lo ≤ pixelMean cells f ∧ pixelMean cells f ≤ hi := by
  have hl : (0 : K) < (cells.length : K) := by exact_mod_cast List.length_pos_of_ne_nil h0
  unfold pixelMean
  rw [le_div_iff₀ hl, div_le_iff₀ hl]
  have h1 : (cells.map fun _ => lo).sum ≤ (cells.map f).sum := List.sum_le_sum fun c hc => (h c hc).1
  have h2 : (cells.map f).sum ≤ (cells.map fun _ => hi).sum := List.sum_le_sum fun c hc => (h c hc).2
  rw [List.map_const', List.sum_replicate, nsmul_eq_mul, mul_comm] at h1 h2
  exact ⟨h1, h2⟩

theorem assign_unknown (type : String) (r : Relief K) (ht : type ≠ "additive" ∧ type ≠ "multiplicative") (d : Data K) (cells : ℕ → List ℕ) (nt size : ℕ)
    (s : ℕ → ℕ → K) (p : ℕ × ℕ) : assign (.gradient type r) d cells nt size s p = s := by
  funext t u
  unfold assign value gradientValue
  have h : ¬ (type = "additive" ∨ type = "multiplicative") := fun h => h.elim ht.1 ht.2
  simp only
  rw [if_neg h]
  split <;> rfl

/-- **C89 (not in general: errors of the threads are lost)**: with a type of gradient that is not known, every task raises an error, but the call
succeeds and all the data are zero. -/
theorem c89_unknown_gradient (type : String) (r : Relief K) (ht : type ≠ "additive" ∧ type ≠ "multiplicative") (d : Data K)
    (pixels : List (ℤ × Option ℕ)) (ids time file : List ℤ) (size : ℕ) (order : List (ℕ × ℕ)) (axis : List ℤ) (hc : checkTimes time file = .ok axis)
    (hu : ∀ uid ∈ ids, pixelsOf pixels uid ≠ []) :
    regrid (.gradient type r) d pixels ids time file size order = .ok (axis, fun _ _ => 0) := by
  have h2 : unitCells pixels ids = .ok (ids.map (cellsOf pixels)) := by
    unfold unitCells
    rw [if_neg]
    intro h
    obtain ⟨uid, h1, h2⟩ := List.any_eq_true.1 h
    rw [cellsOf_eq, List.isEmpty_iff] at h2
    exact hu uid h1 h2
  unfold regrid
  rw [hc]
  simp only
  rw [h2]
  simp only
  congr 2
  unfold runPool
  generalize (fun _ _ => (0 : K) : ℕ → ℕ → K) = s
  induction order with
  | nil => rfl
  | cons p l ih => rw [List.foldl_cons, assign_unknown type r ht, ih]

end HB.Regrid
