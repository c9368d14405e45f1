import Verif.Model.LandCover
import Mathlib.Algebra.BigOperators.Group.List.Basic
import Mathlib.Algebra.Order.BigOperators.Group.List
import Mathlib.Data.List.Nodup
import Mathlib.Data.Rat.Init
import Mathlib.Algebra.Order.Ring.Rat
import Mathlib.Algebra.Field.Rat
import Mathlib.Tactic.Linarith
import Mathlib.Tactic.FieldSimp
import Mathlib.Tactic.Ring
import Mathlib.Tactic.Positivity
import Mathlib.Tactic.NormNum

/-! # C32, C33, C34, C37: land covers -/

set_option linter.unusedSectionVars false
set_option linter.unusedDecidableInType false

namespace HB

variable {K : Type} [Field K] [LinearOrder K] [IsStrictOrderedRing K]

/-! ## Specification -/

/-- A consistent set of extents: every one in [0,1], their sum 1 up to the machine epsilon. -/
structure Spec.Extents (u : HU K) : Prop where
  nodup : u.covers.Nodup
  lo : ∀ c ∈ u.covers, 0 ≤ u.frac c
  hi : ∀ c ∈ u.covers, u.frac c ≤ 1
  sum : |(u.covers.map u.frac).sum - 1| ≤ epsD

/-- Area-weighted amount of a set of storages (per unit of area of the hydro unit). -/
def Spec.held (u : HU K) (roles : List Role) : K :=
  (u.covers.map fun c => u.frac c * (roles.map (u.depth c)).sum).sum

/-- Liquid water: the cover itself, its snowpack, its canopy. -/
def Spec.liquid : List Role := [.selfWater, .snowpackWater, .canopyWater]

/-! ## Sums over covers -/

theorem sum_change_two {l : List String} (hn : l.Nodup) {a b : String} (ha : a ∈ l) (hb : b ∈ l) (hab : a ≠ b)
    {F G : String → K} (h : ∀ c, c ≠ a → c ≠ b → G c = F c) :
    (l.map G).sum = (l.map F).sum + (G a - F a) + (G b - F b) := by
  have one : ∀ (l : List String), l.Nodup → ∀ a ∈ l, ∀ F G : String → K, (∀ c ∈ l, c ≠ a → G c = F c) →
      (l.map G).sum = (l.map F).sum + (G a - F a) := by
    intro l
    induction l with
    | nil => intro _ a ha; simp at ha
    | cons x l ih =>
      intro hn a ha F G h
      simp only [List.map_cons, List.sum_cons]
      have hn' := List.nodup_cons.1 hn
      rcases List.mem_cons.1 ha with rfl | ha
      · have : l.map G = l.map F := List.map_congr_left fun c hc =>
          h c (List.mem_cons_of_mem _ hc) (fun e => hn'.1 (e ▸ hc))
        rw [this]; ring
      · have hx : x ≠ a := fun e => hn'.1 (e ▸ ha)
        rw [ih hn'.2 a ha F G (fun c hc => h c (List.mem_cons_of_mem _ hc)), h x List.mem_cons_self hx]; ring
  have h1 := one l hn a ha F (Function.update F a (G a)) (fun c _ hc => Function.update_of_ne hc _ _)
  have h2 := one l hn b hb (Function.update F a (G a)) G (fun c _ hc => by
    by_cases e : c = a
    · subst e; simp
    · rw [Function.update_of_ne e]; exact h c e hc)
  rw [h2, h1, Function.update_self, Function.update_of_ne hab.symm]

theorem sum_update {l : List String} (hn : l.Nodup) {a : String} (ha : a ∈ l) (F : String → K) (v : K) :
    (l.map (Function.update F a v)).sum = (l.map F).sum - F a + v := by
  induction l with
  | nil => simp at ha
  | cons x l ih =>
    have hn' := List.nodup_cons.1 hn
    simp only [List.map_cons, List.sum_cons]
    by_cases hx : x = a
    · subst hx
      have : l.map (Function.update F x v) = l.map F := List.map_congr_left fun c hc =>
        Function.update_of_ne (fun e : c = x => hn'.1 (e ▸ hc)) _ _
      rw [this, Function.update_self]; ring
    · have ha' : a ∈ l := by
        rcases List.mem_cons.1 ha with h | h
        · exact absurd h.symm hx
        · exact h
      rw [ih hn'.2 ha', Function.update_of_ne hx]; ring

theorem le_total {u : HU K} (h : ∀ c ∈ u.covers, 0 ≤ u.frac c) {c : String} (hc : c ∈ u.covers) :
    u.frac c ≤ (u.covers.map u.frac).sum :=
  List.single_le_sum (by
    intro x hx
    obtain ⟨d, hd, rfl⟩ := List.mem_map.1 hx
    exact h d hd) _ (List.mem_map_of_mem hc)

theorem HU.generic_mem {u : HU K} {g : String} (h : u.generic = some g) : g ∈ u.covers := by
  have := List.find?_some h
  simpa using this

theorem HU.transfer_frac (u : HU K) (n : String) (a b : K) (g : String) (c d : K) :
    (u.transfer n a b g c d).frac = u.frac ∧ (u.transfer n a b g c d).covers = u.covers := by
  unfold HU.transfer
  dsimp only
  by_cases h1 : nearlyZero (b - a) epsD = true
  · rw [if_pos h1]; exact ⟨rfl, rfl⟩
  · rw [if_neg h1]
    by_cases h2 : nearlyZero (if b - a > 0 then b else d) epsD = true
    · rw [if_pos h2]; exact ⟨rfl, rfl⟩
    · rw [if_neg h2]; exact ⟨rfl, rfl⟩

/-! ## C32 -/

/-- What `fix` gives: from covers with non-negative extents where all but the generic one are at most one. -/
theorem HU.fix_extents {u : HU K} (hn : u.covers.Nodup) (hlo : ∀ c ∈ u.covers, 0 ≤ u.frac c)
    (hhi : ∀ c ∈ u.covers, u.frac c ≤ 1) (hok : u.fix.1 = true) : Spec.Extents u.fix.2 := by
  unfold HU.fix at hok ⊢
  by_cases h1 : nearlyEqual u.total 1 epsD
  · rw [if_pos h1]
    exact ⟨hn, hlo, hhi, of_decide_eq_true h1⟩
  · rw [if_neg h1] at hok ⊢
    dsimp only at hok ⊢
    cases hg : u.generic with
    | none => rw [hg] at hok; simp at hok
    | some g =>
      rw [hg] at hok
      have gm := HU.generic_mem hg
      simp only at hok ⊢
      by_cases h2 : lessThan (u.frac g) (u.total - 1) epsD
      · rw [if_pos h2] at hok; simp at hok
      · rw [if_neg h2]
        have h2' : u.total - 1 - epsD ≤ u.frac g := by simpa [lessThan] using h2
        by_cases h3 : u.frac g - (u.total - 1) > 0
        · rw [if_pos h3]
          refine ⟨hn, ?_, ?_, ?_⟩
          · intro c hc
            by_cases e : c = g
            · subst e; simp only [HU.setFrac, Function.update_self]; exact h3.le
            · simp only [HU.setFrac, Function.update_of_ne e]; exact hlo c hc
          · intro c hc
            by_cases e : c = g
            · subst e; simp only [HU.setFrac, Function.update_self]
              have := le_total hlo gm
              unfold HU.total; linarith
            · simp only [HU.setFrac, Function.update_of_ne e]; exact hhi c hc
          · simp only [HU.setFrac]
            rw [sum_update hn gm]
            have : (u.covers.map u.frac).sum - u.frac g + (u.frac g - (u.total - 1)) - 1 = 0 := by
              unfold HU.total; ring
            rw [this, abs_zero]; unfold epsD; positivity
        · rw [if_neg h3]
          refine ⟨hn, ?_, ?_, ?_⟩
          · intro c hc
            by_cases e : c = g
            · subst e; simp [HU.setFrac]
            · simp only [HU.setFrac, Function.update_of_ne e]; exact hlo c hc
          · intro c hc
            by_cases e : c = g
            · subst e; simp [HU.setFrac]
            · simp only [HU.setFrac, Function.update_of_ne e]; exact hhi c hc
          · simp only [HU.setFrac]
            rw [sum_update hn gm]
            have h3' := not_lt.1 h3
            unfold HU.total at h2' h3'
            rw [abs_le]; constructor <;> [skip; linarith]
            have : (0 : K) ≤ epsD := by unfold epsD; positivity
            linarith

/-- **C32 (one request).** An accepted change leaves every extent in [0,1] and the sum at one. -/
theorem c32_change {u : HU K} (h : Spec.Extents u) (n : String) (f : K) (hok : (u.change n f).1 = true) :
    Spec.Extents (u.change n f).2 := by
  unfold HU.change at hok ⊢
  by_cases h1 : f < 0 ∨ f > 1
  · rw [if_pos h1] at hok; simp at hok
  rw [if_neg h1] at hok ⊢
  by_cases h2 : n ∉ u.covers
  · rw [if_pos h2] at hok; simp at hok
  rw [if_neg h2] at hok ⊢
  push Not at h1 h2
  have key : ∀ v : HU K, v.covers = u.covers → v.frac = u.frac → (v.setFrac n f).fix.1 = true →
      Spec.Extents (v.setFrac n f).fix.2 := by
    intro v hv hv' hok
    apply HU.fix_extents _ _ _ hok
    · show v.covers.Nodup; rw [hv]; exact h.nodup
    · intro c hc
      by_cases e : c = n
      · subst e; simp only [HU.setFrac, Function.update_self]; exact h1.1
      · simp only [HU.setFrac, Function.update_of_ne e]; rw [hv']; exact h.lo c (hv ▸ hc)
    · intro c hc
      by_cases e : c = n
      · subst e; simp only [HU.setFrac, Function.update_self]; exact h1.2
      · simp only [HU.setFrac, Function.update_of_ne e]; rw [hv']; exact h.hi c (hv ▸ hc)
  cases hg : u.generic with
  | none =>
    rw [hg] at hok; simp only at hok ⊢
    exact key u rfl rfl hok
  | some g =>
    rw [hg] at hok; simp only at hok ⊢
    by_cases h3 : g ≠ n ∧ u.covers.length > 1
    · rw [if_pos h3] at hok ⊢
      by_cases h4 : lessThan (u.frac g - (f - u.frac n)) 0 epsD
      · rw [if_pos h4] at hok; simp at hok
      · rw [if_neg h4] at hok ⊢
        have ht := HU.transfer_frac u n (u.frac n) f g (u.frac g) (u.frac g - (f - u.frac n))
        exact key _ ht.2 ht.1 hok
    · rw [if_neg h3] at hok ⊢
      exact key u rfl rfl hok

/-- **C32.** Any sequence of accepted changes keeps the extents consistent. -/
theorem c32_extents {u v : HU K} (h : Spec.Extents u) (reqs : List (String × K)) (hv : u.changes reqs = some v) :
    Spec.Extents v := by
  induction reqs generalizing u with
  | nil => simp only [HU.changes, Option.some.injEq] at hv; exact hv ▸ h
  | cons r reqs ih =>
    obtain ⟨n, f⟩ := r
    simp only [HU.changes] at hv
    split at hv
    · rename_i hok; exact ih (c32_change h n f hok) hv
    · simp at hv

/-- **C32 (valid start).** A unit accepted by the validation, with non-negative extents and fewer than 9999
covers, has consistent extents afterwards. -/
theorem c32_valid_start {u : HU K} (hn : u.covers.Nodup) (hne : u.covers ≠ []) (hlo : ∀ c ∈ u.covers, 0 ≤ u.frac c)
    (hhi : ∀ c ∈ u.covers, u.frac c ≤ 1) (hlen : u.covers.length < 9999) (hok : u.validate.1 = true) :
    Spec.Extents u.validate.2 := by
  unfold HU.validate at hok ⊢
  rw [if_neg hne] at hok ⊢
  by_cases h1 : nearlyEqual u.total 1 epsD
  · rw [if_pos h1]; exact ⟨hn, hlo, hhi, of_decide_eq_true h1⟩
  · rw [if_neg h1] at hok ⊢
    by_cases h2 : nearlyEqual u.total 1 tolLoose
    · rw [if_pos h2]
      have h2' : |u.total - 1| ≤ tolLoose := by simpa [nearlyEqual] using h2
      have hb := abs_le.1 h2'
      unfold HU.fixFirst
      cases hf : u.covers.find? (fun c => decide (u.frac c > u.total - 1)) with
      | none =>
        exfalso
        rw [List.find?_eq_none] at hf
        have hall : ∀ c ∈ u.covers, u.frac c ≤ u.total - 1 := fun c hc => by simpa using hf c hc
        have hsum : (u.covers.map u.frac).sum ≤ u.covers.length • (u.total - 1) := by
          have := List.sum_le_card_nsmul (u.covers.map u.frac) (u.total - 1) (by
            intro x hx; obtain ⟨c, hc, rfl⟩ := List.mem_map.1 hx; exact hall c hc)
          simpa using this
        have hd : 0 ≤ u.total - 1 := by
          obtain ⟨c, hc⟩ := List.exists_mem_of_ne_nil _ hne
          exact (hlo c hc).trans (hall c hc)
        rw [nsmul_eq_mul] at hsum
        have hl : (u.covers.length : K) ≤ 9999 := by exact_mod_cast hlen.le
        have ht : u.total = (u.covers.map u.frac).sum := rfl
        have htol : (tolLoose : K) = 1 / 10 ^ 4 := rfl
        have hle : u.total - 1 ≤ 1 / 10 ^ 4 := by rw [← htol]; exact hb.2
        have : (u.covers.length : K) * (u.total - 1) ≤ 9999 * (1 / 10 ^ 4) :=
          mul_le_mul hl hle hd (by norm_num)
        norm_num at this
        linarith
      | some c =>
        have hc : c ∈ u.covers := List.mem_of_find?_eq_some hf
        have hgt : u.frac c > u.total - 1 := by simpa using List.find?_some hf
        refine ⟨hn, ?_, ?_, ?_⟩
        · intro d hd
          by_cases e : d = c
          · subst e; simp only [HU.setFrac, Function.update_self]; linarith
          · simp only [HU.setFrac, Function.update_of_ne e]; exact hlo d hd
        · intro d hd
          by_cases e : d = c
          · subst e; simp only [HU.setFrac, Function.update_self]
            have := le_total hlo hc
            unfold HU.total; linarith
          · simp only [HU.setFrac, Function.update_of_ne e]; exact hhi d hd
        · simp only [HU.setFrac]
          rw [sum_update hn hc]
          have : (u.covers.map u.frac).sum - u.frac c + (u.frac c - (u.total - 1)) - 1 = 0 := by
            unfold HU.total; ring
          rw [this, abs_zero]; unfold epsD; positivity
    · rw [if_neg h2] at hok; simp at hok

/-- Sum exactly one is preserved too, when the change of extent is not below the machine epsilon and the generic
cover absorbs it; the changed cover has the requested extent and the generic one the complement. -/
theorem HU.change_exact {u : HU K} (hn : u.covers.Nodup) (hs : (u.covers.map u.frac).sum = 1) {n g : String} {f : K}
    (hf0 : 0 ≤ f) (hf1 : f ≤ 1) (hm : n ∈ u.covers) (hg : u.generic = some g) (hgn : g ≠ n)
    (hd : epsD < |f - u.frac n|) (hab : 0 ≤ u.frac g - (f - u.frac n)) :
    u.change n f = (true, ((u.transfer n (u.frac n) f g (u.frac g) (u.frac g - (f - u.frac n))).setFrac n f).setFrac g
      (u.frac g - (f - u.frac n))) := by
  have gm := HU.generic_mem hg
  have hlen : u.covers.length > 1 := by
    rcases hl : u.covers with _ | ⟨x, _ | ⟨y, l⟩⟩
    · rw [hl] at hm; simp at hm
    · rw [hl] at hm gm; simp at hm gm; exact absurd (gm.trans hm.symm) hgn
    · simp
  have eps0 : (0 : K) < epsD := by unfold epsD; positivity
  set w := (u.transfer n (u.frac n) f g (u.frac g) (u.frac g - (f - u.frac n))).setFrac n f with hw
  have ht := HU.transfer_frac u n (u.frac n) f g (u.frac g) (u.frac g - (f - u.frac n))
  have htot : w.total = 1 + (f - u.frac n) := by
    rw [hw]
    unfold HU.total HU.setFrac
    rw [ht.1, ht.2, sum_update hn hm, hs]; ring
  have hgen : w.generic = some g := by
    rw [← hg]
    unfold HU.generic
    have : w.covers = u.covers := ht.2
    rw [this]
  have hfg : w.frac g = u.frac g := by
    rw [hw]; simp only [HU.setFrac]; rw [Function.update_of_ne hgn, ht.1]
  have hfix : w.fix = (true, w.setFrac g (u.frac g - (f - u.frac n))) := by
    unfold HU.fix
    have h1 : ¬ (nearlyEqual w.total 1 epsD : Prop) := by
      simp only [nearlyEqual, htot, decide_eq_true_eq, not_le]
      rw [show 1 + (f - u.frac n) - 1 = f - u.frac n by ring]; exact hd
    rw [if_neg h1]
    simp only [hgen, hfg, htot]
    have e : (1 : K) + (f - u.frac n) - 1 = f - u.frac n := by ring
    rw [e]
    have h2 : ¬ (lessThan (u.frac g) (f - u.frac n) epsD : Prop) := by
      simp only [lessThan, decide_eq_true_eq, not_lt]; linarith
    rw [if_neg h2]
    split
    · rfl
    · rename_i h3
      have : u.frac g - (f - u.frac n) = 0 := le_antisymm (not_lt.1 h3) hab
      rw [this]
  unfold HU.change
  rw [if_neg (by push Not; exact ⟨hf0, hf1⟩), if_neg (not_not.2 hm), hg]
  simp only
  rw [if_pos ⟨hgn, hlen⟩, if_neg (by simp only [lessThan, decide_eq_true_eq, not_lt]; linarith), ← hw, hfix]

/-! ## C33 -/

/-- Depths of donor and receiver after a transfer, with nothing cleared unless the donor vanishes exactly. -/
theorem HU.transfer_held {u : HU K} {donor recv : String} (hne : donor ≠ recv)
    (hsw : (u.slot recv .selfWater).isSome) {fO fN strip dO dN : K}
    (hfN : fN ≠ 0) (hNO : fN = fO + strip) (hdN : dN = dO - strip)
    (s : String → Role → Option K)
    (hs : s recv = u.recvSlots donor recv fO fN strip)
    (hd : s donor = u.slot donor ∨ (dN = 0 ∧ ∀ r, (s donor r).getD 0 = 0)) :
    fN * (Spec.liquid.map fun r => (s recv r).getD 0).sum + dN * (Spec.liquid.map fun r => (s donor r).getD 0).sum
      = fO * (Spec.liquid.map (u.depth recv)).sum + dO * (Spec.liquid.map (u.depth donor)).sum ∧
    ((u.slot donor .snow).isSome → (u.slot recv .snow).isSome →
      fN * (s recv .snow).getD 0 + dN * (s donor .snow).getD 0 = fO * u.depth recv .snow + dO * u.depth donor .snow) ∧
    ((u.slot donor .snow).isSome = false →
      fN * (s recv .snow).getD 0 + dN * (s donor .snow).getD 0 = fO * u.depth recv .snow + dO * u.depth donor .snow) ∧
    ((u.slot donor .selfIce).isSome = false →
      fN * (s recv .selfIce).getD 0 + dN * (s donor .selfIce).getD 0
        = fO * u.depth recv .selfIce + dO * u.depth donor .selfIce) := by
  have hdon : ∀ r, dN * (s donor r).getD 0 = dN * u.depth donor r := by
    intro r
    rcases hd with hd | ⟨h0, _⟩
    · rw [hd]; rfl
    · rw [h0]; ring
  have hrec : ∀ r, r ≠ .selfWater → (u.slot recv r).isSome →
      fN * (s recv r).getD 0 = fO * u.depth recv r + u.depth donor r * strip := by
    intro r hr hi
    obtain ⟨rd, hrd⟩ := Option.isSome_iff_exists.1 hi
    rw [hs]; simp only [HU.recvSlots, HU.depth, hrd, Option.map_some, Option.getD_some, hr, if_false]
    field_simp
  have hrec0 : ∀ r, (u.slot recv r).isSome = false → fN * (s recv r).getD 0 = fO * u.depth recv r := by
    intro r hi
    have : u.slot recv r = none := by simpa using hi
    rw [hs]; simp [HU.recvSlots, HU.depth, this]
  have hself : fN * (s recv .selfWater).getD 0 =
      fO * u.depth recv .selfWater + (u.depth donor .selfWater + u.unmatched donor recv) * strip := by
    obtain ⟨rd, hrd⟩ := Option.isSome_iff_exists.1 hsw
    rw [hs]; simp only [HU.recvSlots, HU.depth, hrd, Option.map_some, Option.getD_some, if_true]
    field_simp
  refine ⟨?_, ?_, ?_, ?_⟩
  · simp only [Spec.liquid, List.map_cons, List.map_nil, List.sum_cons, List.sum_nil]
    have ex : ∀ a b c : K, fN * (a + (b + (c + 0))) = fN * a + fN * b + fN * c := by intros; ring
    have ex2 : ∀ a b c : K, dN * (a + (b + (c + 0))) = dN * a + dN * b + dN * c := by intros; ring
    rw [ex, ex2, hdon, hdon, hdon, hself]
    have hu : u.unmatched donor recv
        = (if (u.slot recv .snowpackWater).isSome then 0 else u.depth donor .snowpackWater)
          + (if (u.slot recv .canopyWater).isSome then 0 else u.depth donor .canopyWater) := by
      unfold HU.unmatched Role.all
      have z : ∀ r, u.slot donor r = none → u.depth donor r = 0 := by
        intro r h; simp [HU.depth, h]
      obtain ⟨rd, hrd⟩ := Option.isSome_iff_exists.1 hsw
      rcases h1 : u.slot donor .snowpackWater with _ | x1 <;> rcases h2 : u.slot donor .canopyWater with _ | x2 <;>
      rcases h3 : u.slot recv .snowpackWater with _ | x3 <;> rcases h4 : u.slot recv .canopyWater with _ | x4 <;>
      simp [Role.isWater, h1, h2, h3, h4, hrd, HU.depth, List.filter_cons]
    rw [hu, hdN]
    rcases h3 : (u.slot recv .snowpackWater).isSome <;> rcases h4 : (u.slot recv .canopyWater).isSome
    · rw [hrec0 _ h3, hrec0 _ h4]; simp; ring
    · rw [hrec0 _ h3, hrec _ (by simp) h4]; simp; ring
    · rw [hrec _ (by simp) h3, hrec0 _ h4]; simp; ring
    · rw [hrec _ (by simp) h3, hrec _ (by simp) h4]; simp; ring
  · intro _ h2
    rw [hdon, hrec _ (by simp) h2, hdN]; ring
  · intro h1
    have hz : u.depth donor .snow = 0 := by
      have : u.slot donor .snow = none := by simpa using h1
      simp [HU.depth, this]
    rw [hdon, hz]
    rcases h2 : (u.slot recv .snow).isSome
    · rw [hrec0 _ h2]; ring
    · rw [hrec _ (by simp) h2, hz]; ring
  · intro h1
    have hz : u.depth donor .selfIce = 0 := by
      have : u.slot donor .selfIce = none := by simpa using h1
      simp [HU.depth, this]
    rw [hdon, hz]
    rcases h2 : (u.slot recv .selfIce).isSome
    · rw [hrec0 _ h2]; ring
    · rw [hrec _ (by simp) h2, hz]; ring

/-- **C33.** Extents summing to one, a change that the generic cover absorbs and that is not below the machine
epsilon: the liquid water held by the unit does not change, whatever storages each cover has; neither does the
snow, provided the cover that gains land has a snowpack if the one that loses it has; nor the ice, unless land is
taken from a glacier. (`hclear`: a cover that vanishes does so completely.) -/
theorem c33_conserved_partial {u : HU K} (hn : u.covers.Nodup) (hs : (u.covers.map u.frac).sum = 1)
    {n g : String} {f : K} (hf0 : 0 ≤ f) (hf1 : f ≤ 1) (hm : n ∈ u.covers) (hg : u.generic = some g) (hgn : g ≠ n)
    (hpos : 0 ≤ u.frac n) (hgpos : 0 ≤ u.frac g)
    (hd : epsD < |f - u.frac n|) (hab : 0 ≤ u.frac g - (f - u.frac n))
    (hw : ∀ c ∈ u.covers, (u.slot c .selfWater).isSome)
    (hclear : ∀ x ∈ [f, u.frac g - (f - u.frac n)], x = 0 ∨ epsD < x) :
    let v := (u.change n f).2
    let donor := if f > u.frac n then g else n
    let recv := if f > u.frac n then n else g
    (u.change n f).1 = true ∧ v.frac n = f ∧
    Spec.held v Spec.liquid = Spec.held u Spec.liquid ∧
    (((u.slot donor .snow).isSome = true → (u.slot recv .snow).isSome = true) →
      Spec.held v [.snow] = Spec.held u [.snow]) ∧
    ((u.slot donor .selfIce).isSome = false → Spec.held v [.selfIce] = Spec.held u [.selfIce]) := by
  intro v donor recv
  have gm := HU.generic_mem hg
  have hex := HU.change_exact hn hs hf0 hf1 hm hg hgn hd hab
  have eps0 : (0 : K) < epsD := by unfold epsD; positivity
  set w := u.transfer n (u.frac n) f g (u.frac g) (u.frac g - (f - u.frac n)) with hwdef
  have ht := HU.transfer_frac u n (u.frac n) f g (u.frac g) (u.frac g - (f - u.frac n))
  have hv : v = (w.setFrac n f).setFrac g (u.frac g - (f - u.frac n)) := by simp only [v, hex]
  have vfn : v.frac n = f := by
    rw [hv]; simp only [HU.setFrac]; rw [Function.update_of_ne hgn.symm, Function.update_self]
  have vfg : v.frac g = u.frac g - (f - u.frac n) := by
    rw [hv]; simp only [HU.setFrac]; rw [Function.update_self]
  have vfo : ∀ c, c ≠ n → c ≠ g → v.frac c = u.frac c := by
    intro c h1 h2
    rw [hv]; simp only [HU.setFrac]; rw [Function.update_of_ne h2, Function.update_of_ne h1, ht.1]
  have vcov : v.covers = u.covers := by rw [hv]; exact ht.2
  have vslot : v.slot = w.slot := by rw [hv]; rfl
  -- the transfer
  set strip := |f - u.frac n| with hstrip
  set fO := (if f > u.frac n then u.frac n else u.frac g) with hfO
  set fN := (if f > u.frac n then f else u.frac g - (f - u.frac n)) with hfN
  set dO := (if f > u.frac n then u.frac g else u.frac n) with hdO
  set dN := (if f > u.frac n then u.frac g - (f - u.frac n) else f) with hdN
  have geo : fN = fO + strip ∧ dN = dO - strip ∧ 0 ≤ fO ∧ donor ≠ recv ∧ 0 ≤ dN := by
    by_cases hc : f > u.frac n
    · have : strip = f - u.frac n := by rw [hstrip]; exact abs_of_pos (by linarith)
      simp only [hfN, hfO, hdN, hdO, donor, recv, hc, if_true, this]
      exact ⟨by ring, trivial, hpos, hgn, hab⟩
    · have : strip = -(f - u.frac n) := by rw [hstrip]; exact abs_of_nonpos (by linarith [not_lt.1 hc])
      simp only [hfN, hfO, hdN, hdO, donor, recv, hc, if_false, this]
      exact ⟨by ring, by ring, hgpos, hgn.symm, hf0⟩
  obtain ⟨g1, g2, g3, g4, g5⟩ := geo
  have hfNpos : epsD < fN := by linarith
  have hdNc : dN = 0 ∨ epsD < dN := by
    simp only [hdN]; split
    · exact hclear _ (by simp)
    · exact hclear _ (by simp)
  have hslots : w.slot recv = u.recvSlots donor recv fO fN strip ∧
      (w.slot donor = u.slot donor ∨ (dN = 0 ∧ ∀ r, (w.slot donor r).getD 0 = 0)) ∧
      (∀ c, c ≠ donor → c ≠ recv → w.slot c = u.slot c) := by
    have z1 : ¬ (nearlyZero (f - u.frac n) epsD = true) := by
      simp only [nearlyZero, decide_eq_true_eq, not_le]; exact hd
    have z2 : ¬ (nearlyZero fN epsD = true) := by
      simp only [nearlyZero, decide_eq_true_eq, not_le]; exact lt_of_lt_of_le hfNpos (le_abs_self _)
    have hcond : (f - u.frac n > 0) = (f > u.frac n) := by simp
    have hst : (if f > u.frac n then f - u.frac n else -(f - u.frac n)) = strip := by
      rw [hstrip]; split
      · rename_i hc; exact (abs_of_pos (by linarith)).symm
      · rename_i hc; exact (abs_of_nonpos (by linarith [not_lt.1 hc])).symm
    have e : w.slot = (if nearlyZero dN epsD = true then
        Function.update (Function.update u.slot recv (u.recvSlots donor recv fO fN strip)) donor
          (fun r => (u.slot donor r).map fun _ => 0)
        else Function.update u.slot recv (u.recvSlots donor recv fO fN strip)) := by
      rw [hwdef]
      unfold HU.transfer
      simp only [hcond, hst]
      rw [if_neg z1, if_neg z2]
    rw [e]
    by_cases z3 : nearlyZero dN epsD = true
    · have d0 : dN = 0 := by
        rcases hdNc with h | h
        · exact h
        · simp only [nearlyZero, decide_eq_true_eq] at z3
          exact absurd (lt_of_lt_of_le h (le_abs_self _)) (not_lt.2 z3)
      simp only [if_pos z3]
      refine ⟨?_, Or.inr ⟨d0, ?_⟩, ?_⟩
      · rw [Function.update_of_ne g4.symm, Function.update_self]
      · intro r; rw [Function.update_self]; cases u.slot donor r <;> simp
      · intro c h1 h2; rw [Function.update_of_ne h1, Function.update_of_ne h2]
    · simp only [if_neg z3]
      refine ⟨?_, Or.inl ?_, ?_⟩
      · rw [Function.update_self]
      · rw [Function.update_of_ne g4]
      · intro c h1 h2; rw [Function.update_of_ne h2]
  have rm : recv ∈ u.covers := by simp only [recv]; split <;> assumption
  have dm : donor ∈ u.covers := by simp only [donor]; split <;> assumption
  have hh := HU.transfer_held (u := u) g4 (hw recv rm) (hfNpos.trans' eps0).ne' g1 g2 w.slot hslots.1 hslots.2.1
  have vfr : v.frac recv = fN := by
    simp only [recv, hfN]; split <;> assumption
  have vfd : v.frac donor = dN := by
    simp only [donor, hdN]; split <;> assumption
  have ufr : u.frac recv = fO := by simp only [recv, hfO]; split <;> rfl
  have ufd : u.frac donor = dO := by simp only [donor, hdO]; split <;> rfl
  have hheld : ∀ roles : List Role,
      fN * (roles.map fun r => (w.slot recv r).getD 0).sum + dN * (roles.map fun r => (w.slot donor r).getD 0).sum
        = fO * (roles.map (u.depth recv)).sum + dO * (roles.map (u.depth donor)).sum →
      Spec.held v roles = Spec.held u roles := by
    intro roles h
    unfold Spec.held
    rw [vcov, sum_change_two hn rm dm g4.symm (F := fun c => u.frac c * (roles.map (u.depth c)).sum)]
    · have er : (fun r => (w.slot recv r).getD 0) = v.depth recv := by funext r; simp [HU.depth, vslot]
      have ed : (fun r => (w.slot donor r).getD 0) = v.depth donor := by funext r; simp [HU.depth, vslot]
      rw [er, ed] at h
      rw [vfr, vfd, ufr, ufd]
      linarith
    · intro c h1 h2
      have hc : c ≠ n ∧ c ≠ g := by
        simp only [recv, donor] at h1 h2
        split at h1
        · rename_i hc; rw [if_pos hc] at h2; exact ⟨h1, h2⟩
        · rename_i hc; rw [if_neg hc] at h2; exact ⟨h2, h1⟩
      have : v.depth c = u.depth c := by
        funext r; unfold HU.depth; rw [vslot, hslots.2.2 c h2 h1]
      rw [vfo c hc.1 hc.2, this]
  refine ⟨by rw [hex], vfn, hheld _ hh.1, fun hsn => hheld _ ?_, fun hi => hheld _ ?_⟩
  · simp only [List.map_cons, List.map_nil, List.sum_cons, List.sum_nil, add_zero]
    cases hds : (u.slot donor .snow).isSome with
    | true => exact hh.2.1 hds (hsn hds)
    | false => exact hh.2.2.1 hds
  · simp only [List.map_cons, List.map_nil, List.sum_cons, List.sum_nil, add_zero]
    exact hh.2.2.2 hi

/-- A unit with a glacier, a forest with a canopy, and the generic cover, for the examples. -/
def Demo.unit : HU ℚ where
  covers := ["glacier", "forest", "open"]
  frac := fun c => if c = "glacier" then 3 / 10 else if c = "forest" then 2 / 10 else 5 / 10
  slot := fun c r => match r with
    | .selfWater => some 4
    | .selfIce => if c = "glacier" then some 1000 else none
    | .snow => if c = "forest" then none else some 100
    | .snowpackWater => if c = "forest" then none else some 2
    | .canopyWater => if c = "forest" then some 3 else none

/-- Witness: the hypotheses of C32 and C33 hold of a glacier shrinking from 30% to 10%, and of a forest
disappearing (its canopy water goes to the ground). -/
example : Spec.Extents Demo.unit ∧ (Demo.unit.covers.map Demo.unit.frac).sum = 1 ∧ Demo.unit.generic = some "open" ∧
    epsD < |1 / 10 - Demo.unit.frac "glacier"| ∧ 0 ≤ Demo.unit.frac "open" - (1 / 10 - Demo.unit.frac "glacier") ∧
    (Demo.unit.change "glacier" (1 / 10)).1 = true ∧
    Spec.held (Demo.unit.change "forest" 0).2 Spec.liquid = Spec.held Demo.unit Spec.liquid := by
  refine ⟨⟨by decide, ?_, ?_, by decide +kernel⟩, by decide +kernel, by decide +kernel, by decide +kernel,
    by decide +kernel, by decide +kernel, by decide +kernel⟩
  · intro c _; unfold Demo.unit; dsimp only; split
    · norm_num
    · split <;> norm_num
  · intro c _; unfold Demo.unit; dsimp only; split
    · norm_num
    · split <;> norm_num

/-- **Finding (C33).** Snow on the land that changes hands is lost when the cover that gains it has no snowpack:
the generic cover giving 10% of the unit to the (snowpack-less) forest loses 10 mm of snow. -/
theorem c33_unmatched_snow_lost :
    (Demo.unit.change "forest" (3 / 10)).1 = true ∧
    Spec.held (Demo.unit.change "forest" (3 / 10)).2 [.snow] = Spec.held Demo.unit [.snow] - 10 := by
  constructor <;> decide +kernel

/-- **Finding (C33).** Ice under land taken from a glacier is lost by the land cover change itself (the glacier
evolution actions restore it afterwards, see C38; a plain land cover change does not). -/
theorem c33_glacier_ice_lost :
    (Demo.unit.change "glacier" (1 / 10)).1 = true ∧
    Spec.held (Demo.unit.change "glacier" (1 / 10)).2 [.selfIce] = Spec.held Demo.unit [.selfIce] - 200 := by
  constructor <;> decide +kernel

/-- **Finding (C32).** A request to change the generic cover itself is accepted and ignored: the generic cover is
immediately reset to the complement of the others. -/
theorem c32_generic_request_ignored {u : HU K} (hn : u.covers.Nodup) (hs : (u.covers.map u.frac).sum = 1)
    {g : String} {f : K} (hf0 : 0 ≤ f) (hf1 : f ≤ 1) (hg : u.generic = some g) (hgp : 0 < u.frac g)
    (hd : epsD < |f - u.frac g|) : u.change g f = (true, u) := by
  have gm := HU.generic_mem hg
  have eps0 : (0 : K) < epsD := by unfold epsD; positivity
  unfold HU.change
  rw [if_neg (by push Not; exact ⟨hf0, hf1⟩), if_neg (not_not.2 gm), hg]
  simp only
  rw [if_neg (by simp)]
  have hgen : (u.setFrac g f).generic = some g := hg
  have htot : (u.setFrac g f).total = 1 + (f - u.frac g) := by
    unfold HU.total HU.setFrac; simp only; rw [sum_update hn gm, hs]; ring
  have hfg : (u.setFrac g f).frac g = f := by simp [HU.setFrac]
  unfold HU.fix
  rw [if_neg (by
    simp only [nearlyEqual, htot, decide_eq_true_eq, not_le]
    rw [show 1 + (f - u.frac g) - 1 = f - u.frac g by ring]; exact hd)]
  simp only [hgen, hfg, htot]
  rw [show (1 : K) + (f - u.frac g) - 1 = f - u.frac g by ring,
    if_neg (by simp only [lessThan, decide_eq_true_eq, not_lt]; linarith), if_pos (by linarith)]
  congr 1
  unfold HU.setFrac
  cases u with
  | mk cv fr sl =>
    simp only [HU.mk.injEq, true_and, and_true]
    funext c
    by_cases e : c = g
    · subst e; simp
    · simp [e]

/-! ## C34 -/

/-- **C34.** In a unit whose extents sum to one and that has a generic cover, a refused request changes nothing:
neither extents nor contents. -/
theorem c34_rejected_partial {u : HU K} (hn : u.covers.Nodup) (hs : (u.covers.map u.frac).sum = 1)
    (hlo : ∀ c ∈ u.covers, 0 ≤ u.frac c) {g : String} (hg : u.generic = some g) (n : String) (f : K)
    (hrej : (u.change n f).1 = false) : (u.change n f).2 = u := by
  have gm := HU.generic_mem hg
  have eps0 : (0 : K) < epsD := by unfold epsD; positivity
  unfold HU.change at hrej ⊢
  by_cases h1 : f < 0 ∨ f > 1
  · rw [if_pos h1]
  rw [if_neg h1] at hrej ⊢
  by_cases h2 : n ∉ u.covers
  · rw [if_pos h2]
  rw [if_neg h2] at hrej ⊢
  rw [hg] at hrej ⊢
  simp only at hrej ⊢
  have nm : n ∈ u.covers := not_not.1 h2
  -- `fix` cannot fail here
  have nofail : ∀ w : HU K, w.generic = some g → ¬ (w.frac g < w.total - 1 - epsD) → w.fix.1 = true := by
    intro w hw hl
    unfold HU.fix
    split
    · rfl
    · simp only [hw]
      rw [if_neg (by simpa [lessThan] using hl)]
      split <;> rfl
  have tot : ∀ w : HU K, w.covers = u.covers → w.frac = u.frac → (w.setFrac n f).total = 1 + (f - u.frac n) := by
    intro w h h'
    unfold HU.total HU.setFrac; simp only; rw [h, h', sum_update hn nm, hs]; ring
  have gen : ∀ w : HU K, w.covers = u.covers → (w.setFrac n f).generic = some g := by
    intro w h; rw [← hg]; unfold HU.generic HU.setFrac; simp only; rw [h]
  by_cases h3 : g ≠ n ∧ u.covers.length > 1
  · rw [if_pos h3] at hrej ⊢
    by_cases h4 : lessThan (u.frac g - (f - u.frac n)) 0 epsD = true
    · rw [if_pos h4]
    · rw [if_neg h4] at hrej ⊢
      have ht := HU.transfer_frac u n (u.frac n) f g (u.frac g) (u.frac g - (f - u.frac n))
      rw [nofail _ (gen _ ht.2) ?_] at hrej
      · simp at hrej
      · rw [tot _ ht.2 ht.1]
        simp only [HU.setFrac]; rw [Function.update_of_ne h3.1, ht.1]
        simp only [lessThan, decide_eq_true_eq, not_lt] at h4 ⊢
        linarith
  · have hgn : g = n := by
      by_contra hne
      apply h3
      refine ⟨hne, ?_⟩
      rcases hl : u.covers with _ | ⟨x, _ | ⟨y, l⟩⟩
      · rw [hl] at nm; simp at nm
      · rw [hl] at nm gm; simp at nm gm; exact absurd (gm.trans nm.symm) hne
      · simp
    rw [if_neg h3] at hrej
    rw [nofail _ (gen u rfl) ?_] at hrej
    · simp at hrej
    · rw [tot u rfl rfl, hgn]
      simp only [HU.setFrac, Function.update_self]
      have := hlo n nm
      linarith

/-- Witness: a refusal that meets the hypotheses of C34 (the generic cover is too small). -/
example : (Demo.unit.change "glacier" (9 / 10)).1 = false := by decide +kernel

/-- **Finding (C34).** Without a generic cover a refused request has changed the extent. -/
theorem c34_no_generic_cover_mutates : ∃ u : HU ℚ, (u.covers.map u.frac).sum = 1 ∧
    (u.change "forest" (6 / 10)).1 = false ∧ (u.change "forest" (6 / 10)).2.frac "forest" = 6 / 10 ∧
    u.frac "forest" = 1 / 2 := by
  refine ⟨⟨["forest", "meadow"], fun _ => 1 / 2, fun _ _ => none⟩, ?_, ?_, ?_, ?_⟩ <;> decide +kernel

/-- **Finding (C34).** When the extents sum to slightly more than one (within the tolerance), a request can be
refused after the contents and the extent have been changed. -/
theorem c34_tolerance_zone_mutates : ∃ (u : HU ℚ) (f : ℚ), Spec.Extents u ∧ u.generic = some "open" ∧
    (u.change "a" f).1 = false ∧ (u.change "a" f).2.frac "a" ≠ u.frac "a" := by
  refine ⟨⟨["a", "b", "open"], fun c => if c = "open" then epsD else 1 / 2, fun _ _ => some 1⟩, 1 / 2 + 3 / 2 * epsD,
    ⟨by decide, ?_, ?_, by decide +kernel⟩, by decide +kernel, by decide +kernel, by decide +kernel⟩
  · intro c _; dsimp only; split <;> norm_num [epsD]
  · intro c _; dsimp only; split <;> norm_num [epsD]

/-! ## C37 -/

/-- **C37.** The snow-to-ice action on a unit: for a glacier with tracked ice, the snow of its snowpack moves to
the ice, their sum unchanged, and nothing else in the unit changes. -/
theorem c37_snow_to_ice (u : HU K) (c : String) (hc : c ∈ u.covers) (hf : prec < |u.frac c|)
    {s i : K} (hs : u.slot c .snow = some s) (hs0 : 0 ≤ s) (hi : u.slot c .selfIce = some i) :
    ∃ v, snowToIce u c = some v ∧ v.depth c .snow = 0 ∧ v.depth c .selfIce = i + s ∧
      v.depth c .snow + v.depth c .selfIce = s + i ∧ v.frac = u.frac ∧ v.covers = u.covers ∧
      (∀ d r, (d = c ∧ (r = .snow ∨ r = .selfIce)) ∨ v.slot d r = u.slot d r) := by
  unfold snowToIce
  rw [if_neg (by push Not; exact ⟨hc, by simp [nearlyZero, hf]⟩), hs]
  simp only
  by_cases h0 : s ≤ 0
  · have : s = 0 := le_antisymm h0 hs0
    rw [if_pos h0]
    refine ⟨u, rfl, ?_, ?_, ?_, rfl, rfl, fun d r => Or.inr rfl⟩ <;> simp [HU.depth, hs, hi, this]
  · rw [if_neg h0, hi]
    refine ⟨_, rfl, ?_, ?_, ?_, rfl, rfl, ?_⟩
    · simp [HU.depth]
    · simp [HU.depth]
    · simp [HU.depth, add_comm]
    · intro d r
      by_cases hd : d = c
      · subst hd
        by_cases h1 : r = .snow
        · exact Or.inl ⟨rfl, Or.inl h1⟩
        · by_cases h2 : r = .selfIce
          · exact Or.inl ⟨rfl, Or.inr h2⟩
          · right; simp [h1, h2]
      · right; simp [hd]

/-- Area-weighted mass of the whole unit is unchanged too. -/
theorem c37_unit_mass (u v : HU K) (c : String) (h : snowToIce u c = some v) :
    Spec.held v [.snow, .selfIce] = Spec.held u [.snow, .selfIce] ∧ Spec.held v Spec.liquid = Spec.held u Spec.liquid := by
  unfold snowToIce at h
  split at h
  · cases h; exact ⟨rfl, rfl⟩
  · split at h
    · cases h; exact ⟨rfl, rfl⟩
    · rename_i s hs
      split at h
      · cases h; exact ⟨rfl, rfl⟩
      · split at h
        · exact absurd h (by simp)
        · rename_i i hi
          cases h
          constructor
          · unfold Spec.held
            congr 1
            apply List.map_congr_left
            intro d _
            by_cases hd : d = c
            · subst hd; simp [HU.depth, hs, hi, add_comm]
            · simp [HU.depth, hd]
          · unfold Spec.held Spec.liquid
            congr 1
            apply List.map_congr_left
            intro d _
            by_cases hd : d = c
            · subst hd; simp [HU.depth]
            · simp [HU.depth, hd]

example : (snowToIce Demo.unit "glacier").map (fun v => v.depth "glacier" .selfIce) = some 1100 := by
  decide +kernel

end HB
