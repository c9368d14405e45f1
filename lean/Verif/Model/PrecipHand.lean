import Verif.Model.PrecipSums

/-! # What the splitters of a unit hand out is the precipitation on the unit. -/

set_option linter.unusedSectionVars false
set_option linter.unusedSimpArgs false

namespace HB.Wire

open HB.Names

variable {K : Type} [Field K] [LinearOrder K] [IsStrictOrderedRing K]

/-- The fluxes of a splitter, numbered. -/
def fromSplit (m : Wire.Model K) (u j : ℕ) : List (Flux K × ℕ) := m.net.outs.zipIdx.filter fun e => decide (e.1.src = .unitSplit u j)

theorem forall₂_one {α β : Type} {R : α → β → Prop} {l : List α} {b : β} (h : List.Forall₂ R l [b]) : ∃ e, l = [e] ∧ R e b := by
  cases h with
  | cons h1 h2 => cases h2; exact ⟨_, rfl, h1⟩

theorem forall₂_two {α β : Type} {R : α → β → Prop} {l : List α} {b b' : β} (h : List.Forall₂ R l [b, b']) :
    ∃ e e', l = [e, e'] ∧ R e b ∧ R e' b' := by
  cases h with
  | cons h1 h2 =>
    obtain ⟨e, rfl, h3⟩ := forall₂_one h2
    exact ⟨_, e, rfl, h1, h3⟩

section
variable {inp : Input K} (hd : Spec.Described inp) {m : Wire.Model K} (hb : build inp = .ok m) {ext : ℕ → ℕ → K}
include hd hb

theorem split_proc {f : Flux K} (hf : f ∈ m.net.outs) {u j : ℕ} (hs : f.src = .unitSplit u j) : f.proc = 0 := by
  rcases c57_only_declared (described_distinct hd) hb f hf with ⟨_, _, _, _, _, h, _⟩ | ⟨_, _, _, _, _, h, _⟩ | ⟨_, _, _, h, _⟩ | ⟨_, _, h, _⟩
  · rw [hs] at h; cases h
  · exact h
  · rw [hs] at h; cases h
  · rw [hs] at h; cases h

theorem from_eq (u j : ℕ) : fromSplit m u j = m.net.outs.zipIdx.filter fun e => decide (e.1.src = .unitSplit u j ∧ e.1.proc = 0) := by
  apply List.filter_congr
  intro e he
  rw [Bool.eq_iff_iff, decide_eq_true_iff, decide_eq_true_iff]
  exact ⟨fun h => ⟨h, split_proc hd hb (List.mem_of_getElem? (Asm.mem_zipIdx' he)) h⟩, fun h => h.1⟩

theorem from_ids (u j : ℕ) : (fromSplit m u j).map (·.2) = Asm.ids m.net (.unitSplit u j) 0 := by
  rw [from_eq hd hb]; rfl

theorem from_wired {u : ℕ} {un : UnitIn K} (hu : inp.units[u]? = some un) {j : ℕ} {s : Split} (hs : un.str.unitSplits[j]? = some s) :
    List.Forall₂ (fun (e : Flux K × ℕ) o => Spec.WiredSplit inp u un o e.1) (fromSplit m u j) s.outs := by
  have h := c57_splitter_outputs (described_distinct hd) hb hu hs
  have e : m.net.outputs (.unitSplit u j) 0 = (fromSplit m u j).map (·.1) := by
    rw [from_eq hd hb]
    unfold Net.outputs
    conv_lhs => rw [← List.zipIdx_map_fst 0 m.net.outs]
    rw [List.filter_map]
    rfl
  rw [e, List.forall₂_map_left_iff] at h
  exact h

/-- The target named after a brick of the unit. -/
theorem brick_target {u : ℕ} {un : UnitIn K} (hu : inp.units[u]? = some un) {v : Variant} (hg : Good v (basNames inp)) (hs : un.str = Spec.complete v)
    {i : ℕ} {b : Brick} (hi : (Spec.complete v).unitBricks[i]? = some b) {o : Out} (ho : b.name = o.target) {f : Flux K}
    (hw : Spec.WiredSplit inp u un o f) : f.dst = .comp (.unitBrick u i) := by
  have h1 := hw.dest
  have hbn : Spec.BrickNamed inp u un o.target (.unitBrick u i) b := .own (by rw [hs]; exact hi) ho
  have hne : o.target ≠ "outlet" := by
    rw [← ho]
    intro he
    exact complete_plain hg (List.mem_of_getElem? hi) (by rw [he]; decide)
  revert h1
  cases f.dst with
  | outlet => intro h; cases h; contradiction
  | atmosphere => intro h; cases h
  | comp c =>
    intro h
    cases h with
    | brick h1 h2 =>
      obtain ⟨rfl, -⟩ := named_own hd hg hs hi ho h2
      rfl
    | split h1 h2 h3 => exact absurd hbn (h2 _ _)

/-- The target named after a splitter. -/
theorem split_target {u : ℕ} {un : UnitIn K} (hu : inp.units[u]? = some un) {v : Variant} (hg : Good v (basNames inp)) (hs : un.str = Spec.complete v)
    {o : Out} (ho : o.target ∈ ["rain_splitter", "snow_splitter"]) {f : Flux K} (hw : Spec.WiredSplit inp u un o f) :
    ∃ (j : ℕ) (s : Split), f.dst = .comp (.unitSplit u j) ∧ un.str.unitSplits[j]? = some s ∧ s.name = o.target := by
  have h1 := hw.dest
  have key : ∀ t ∈ ["rain_splitter", "snow_splitter"], t ≠ "outlet" ∧ t ∈ Spec.keywords := by decide
  obtain ⟨k1, k2⟩ := key _ ho
  revert h1
  cases f.dst with
  | outlet => intro h; cases h; contradiction
  | atmosphere => intro h; cases h
  | comp c =>
    intro h
    cases h with
    | brick h1 h2 =>
      exfalso
      cases h2 with
      | own h2 h3 => rw [hs] at h2; exact complete_plain hg (List.mem_of_getElem? h2) (by rw [h3]; exact k2)
      | basin h0 h2 h3 => exact (basin_brick hd h2).2.1 (by rw [h3]; exact k2)
    | split h1 h2 h3 =>
      cases h3 with
      | @own i s h4 h5 => exact ⟨i, s, rfl, h4, h5⟩
      | basin h0 h4 => rw [basin_splits hd] at h4; simp at h4

/-- All splitters of a unit but the first hand on what they receive, to each land cover or what lies on it. -/
theorem pass_outs {u : ℕ} {un : UnitIn K} (hu : inp.units[u]? = some un) {v : Variant} (hg : Good v (basNames inp)) (hs : un.str = Spec.complete v)
    {j : ℕ} (hj : 1 ≤ j) {s : Split} (hsp : un.str.unitSplits[j]? = some s) (ext : ℕ → ℕ → K) : s.type = "multi_fluxes" ∧ ∃ τ : Cover → Out, s.outs = v.base.covers.map τ ∧
      ∀ (k : ℕ) (c : Cover), v.base.covers[k]? = some c → ∃ (i : ℕ) (b : Brick), (Spec.complete v).unitBricks[i]? = some b ∧ b.name = (τ c).target ∧
        Spec.extent inp ext (.unitBrick u i) = ext u k := by
  have snowpack : v.base.withSnow = true → ∀ (k : ℕ) (c : Cover), v.base.covers[k]? = some c → ∃ (i : ℕ) (b : Brick), (Spec.complete v).unitBricks[i]? = some b ∧
      b.name = c.name ++ "_snowpack" ∧ Spec.extent inp ext (.unitBrick u i) = ext u k := by
    intro hw k c hk
    have h1 := snow_get hw hk
    rw [fill_snow hg hw (List.mem_of_getElem? hk)] at h1
    refine ⟨_, _, h1, rfl, extent_surface hd hg hu hs (by omega) ?_ h1 rfl hk (by change "snowpack" ∈ _; decide)⟩
    have := (List.getElem?_eq_some_iff.1 hk).1
    simp only [nw, hw, if_true]
    omega
  have rain : ∀ (k : ℕ) (c : Cover), v.base.covers[k]? = some c → ∃ (i : ℕ) (b : Brick), (Spec.complete v).unitBricks[i]? = some b ∧
      b.name = Spec.rainEntry v.base c ∧ Spec.extent inp ext (.unitBrick u i) = ext u k := by
    intro k c hk
    have hc := List.mem_of_getElem? hk
    unfold Spec.rainEntry
    by_cases hcc : c.canopy = true
    · rw [if_pos hcc]
      obtain ⟨q, hq⟩ := List.mem_iff_getElem?.1 (show c ∈ Spec.canopies v.base from List.mem_filter.2 ⟨hc, hcc⟩)
      have h1 := canopy_get hq
      rw [fill_canopy hg hc hcc] at h1
      refine ⟨_, _, h1, rfl, extent_surface hd hg hu hs (by omega) ?_ h1 rfl hk (by change "interception_storage" ∈ _; decide)⟩
      have := (List.getElem?_eq_some_iff.1 hq).1
      simp only [nk]
      omega
    · rw [if_neg hcc]
      unfold Spec.belowCanopy Spec.viaSnowpack
      by_cases hv : (v.base.withSnow && v.base.rainToSnowpack) = true
      · rw [if_pos hv]
        exact snowpack (by simpa using (Bool.and_eq_true_iff.1 hv).1) k c hk
      · rw [if_neg hv]
        exact ⟨k, _, cover_get hk, rfl, extent_cover hd hg hu hs hk⟩
  rw [hs, complete_unitSplits] at hsp
  unfold Spec.base at hsp
  dsimp only at hsp
  by_cases hw : v.base.withSnow = true
  · rw [if_pos hw] at hsp
    match j, hj, hsp with
    | 1, _, hsp =>
      simp only [List.getElem?_cons_succ, List.getElem?_cons_zero, Option.some.injEq] at hsp
      subst hsp
      exact ⟨rfl, _, rfl, fun k c hk => snowpack hw k c hk⟩
    | 2, _, hsp =>
      simp only [List.getElem?_cons_succ, List.getElem?_cons_zero, Option.some.injEq] at hsp
      subst hsp
      exact ⟨rfl, _, rfl, fun k c hk => rain k c hk⟩
    | j + 3, _, hsp => simp at hsp
  · rw [if_neg hw] at hsp
    match j, hj, hsp with
    | 1, _, hsp =>
      simp only [List.getElem?_cons_succ, List.getElem?_cons_zero, Option.some.injEq] at hsp
      subst hsp
      exact ⟨rfl, _, rfl, fun k c hk => rain k c hk⟩
    | j + 2, _, hsp => simp at hsp

/-- What a splitter that hands on what it receives adds to the unit. -/
theorem pass_sum (hcov : Spec.Covered inp ext) {u : ℕ} {un : UnitIn K} (hu : inp.units[u]? = some un) {j : ℕ} (hj : 1 ≤ j) {s : Split}
    (hsp : un.str.unitSplits[j]? = some s) {amt : ℕ → K} {a : K} (ha : ∀ e ∈ fromSplit m u j, amt e.2 = a) :
    ((fromSplit m u j).map fun e => if handedOut e.1 then Spec.fluxArea inp ext e.1 * amt e.2 else 0).sum = un.area * a := by
  obtain ⟨v, hg, hs, -⟩ := unit_good hd hu
  obtain ⟨-, τ, hτ, hk⟩ := pass_outs hd hb hu hg hs hj hsp ext
  have hF := from_wired hd hb hu hsp
  rw [hτ, List.forall₂_map_right_iff] at hF
  have hwhole := hcov.whole u un hu
  rw [hs, complete_covers] at hwhole
  have hlen : (fromSplit m u j).length = nc v := hF.length_eq
  have e : ((fromSplit m u j).map fun e => if handedOut e.1 then Spec.fluxArea inp ext e.1 * amt e.2 else 0) =
      (List.range (nc v)).map fun k => un.area * a * ext u k := by
    apply List.ext_getElem
    · simp [hlen]
    · intro k h1 h2
      simp only [List.length_map, List.length_range] at h1 h2
      simp only [List.getElem_map, List.getElem_range]
      have hc : k < v.base.covers.length := by rw [hlen] at h1; exact h1
      have hw : Spec.WiredSplit inp u un (τ v.base.covers[k]) ((fromSplit m u j)[k]).1 := by
        have := (List.forall₂_iff_get.1 hF).2 k h1 hc
        simpa using this
      obtain ⟨i, b, hi1, hi2, hi3⟩ := hk k v.base.covers[k] (List.getElem?_eq_getElem hc)
      have hdst := brick_target hd hb hu hg hs hi1 hi2 hw
      have hmem := List.getElem_mem h1
      have hsrc : ((fromSplit m u j)[k]).1.src = .unitSplit u j := of_decide_eq_true (List.mem_filter.1 hmem).2
      have : handedOut ((fromSplit m u j)[k]).1 = true := by
        simp [handedOut, isSplit, toSplit, hsrc, hdst]
      rw [if_pos this, ha _ hmem]
      unfold Spec.fluxArea
      rw [hdst]
      simp only [Spec.areaOf, hu, Option.elim, hi3]
      ring
  rw [e, List.sum_map_mul_left, hwhole, mul_one]

/-- Only the first splitter of the unit feeds its other splitters. -/
theorem feeds_split (hcov : Spec.Covered inp ext) (hnr : Spec.NoRedistribution inp) {ph : Phys K} (hi : Asm.Idle inp m ext ph) (u j : ℕ) :
    Spec.numbers m (fun f => decide (f.dst = .comp (.unitSplit u j))) =
      ((fromSplit m u 0).filter fun e => decide (e.1.dst = .comp (.unitSplit u j))).map (·.2) := by
  unfold Spec.numbers fromSplit
  rw [List.filter_filter]
  congr 1
  apply List.filter_congr
  intro e he
  have hf := Asm.mem_zipIdx' he
  rw [Bool.eq_iff_iff, Bool.and_eq_true_iff, decide_eq_true_iff, decide_eq_true_iff]
  refine ⟨fun h => ⟨h, ?_⟩, fun h => h.1⟩
  obtain ⟨h1, -⟩ := ends hd hb hcov hnr hf hi
  rcases h1 with ⟨-, h1⟩ | ⟨x, -, -, h3, -⟩
  · rcases c57_only_declared (described_distinct hd) hb e.1 (List.mem_of_getElem? hf) with ⟨u', un', i, b, p, hs, -⟩ | ⟨u', un', i, s, hs, -, hu', hsp⟩ |
        ⟨i, b, p, hs, -⟩ | ⟨i, s, hs, -, hsp⟩
    · rw [hs] at h1; cases h1
    · have hmem : e ∈ fromSplit m u' i := List.mem_filter.2 ⟨he, decide_eq_true hs⟩
      obtain ⟨o, ho, hw⟩ := Asm.forall₂_mem (from_wired hd hb hu' hsp) hmem
      obtain ⟨v, hg, hsv, -⟩ := unit_good hd hu'
      by_cases h0 : 1 ≤ i
      · exfalso
        obtain ⟨-, τ, hτ, hk⟩ := pass_outs hd hb hu' hg hsv h0 hsp ext
        rw [hτ] at ho
        obtain ⟨c, hc, rfl⟩ := List.mem_map.1 ho
        obtain ⟨k, hk'⟩ := List.mem_iff_getElem?.1 hc
        obtain ⟨i', b, hi1, hi2, -⟩ := hk k c hk'
        have := brick_target hd hb hu' hg hsv hi1 hi2 hw
        rw [h] at this
        cases this
      · have h0 : i = 0 := by omega
        subst h0
        have hd1 := hw.dest
        rw [h] at hd1
        cases hd1 with
        | brick _ h2 => cases h2
        | split _ _ h3 => cases h3; exact hs
    · rw [hs] at h1; cases h1
    · rw [basin_splits hd] at hsp; simp at hsp
  · rw [h] at h3; cases h3

/-- The sum over the splitters of a unit. -/
theorem unit_sum (hcov : Spec.Covered inp ext) (hnr : Spec.NoRedistribution inp) {ph : Phys K} (hi : Asm.Idle inp m ext ph) {u : ℕ}
    {un : UnitIn K} (hu : inp.units[u]? = some un) {p : K} (h0 : ((fromSplit m u 0).map fun e => ph.amt e.2).sum = p)
    (hpass : ∀ j, 1 ≤ j → j < un.str.unitSplits.length → ∀ k, (Spec.numbers m fun f => decide (f.dst = .comp (.unitSplit u j))).head? = some k →
      ∀ e ∈ fromSplit m u j, ph.amt e.2 = ph.amt k) :
    ((List.range un.str.unitSplits.length).map fun j =>
      ((fromSplit m u j).map fun e => if handedOut e.1 then Spec.fluxArea inp ext e.1 * ph.amt e.2 else 0).sum).sum = un.area * p := by
  obtain ⟨v, hg, hs, -⟩ := unit_good hd hu
  have first : ∀ s, un.str.unitSplits[0]? = some s → (∀ o ∈ s.outs, o.target ∈ ["rain_splitter", "snow_splitter"]) →
      ((fromSplit m u 0).map fun e => if handedOut e.1 then Spec.fluxArea inp ext e.1 * ph.amt e.2 else 0).sum = 0 := by
    intro s hsp ho
    apply List.sum_eq_zero
    intro x hx
    obtain ⟨e, he, rfl⟩ := List.mem_map.1 hx
    obtain ⟨o, ho', hw⟩ := Asm.forall₂_mem (from_wired hd hb hu hsp) he
    obtain ⟨j, s', h1, -⟩ := split_target hd hb hu hg hs (ho o ho') hw
    simp [handedOut, toSplit, h1]
  have hus := complete_unitSplits (v := v)
  rw [← hs] at hus
  unfold Spec.base at hus
  dsimp only at hus
  by_cases hw : v.base.withSnow = true
  · rw [if_pos hw] at hus
    have g0 := congrArg (fun l => l[0]?) hus
    simp only [List.getElem?_cons_succ, List.getElem?_cons_zero] at g0
    have g1 := congrArg (fun l => l[1]?) hus
    simp only [List.getElem?_cons_succ, List.getElem?_cons_zero] at g1
    have g2 := congrArg (fun l => l[2]?) hus
    simp only [List.getElem?_cons_succ, List.getElem?_cons_zero] at g2
    have hl : un.str.unitSplits.length = 3 := by rw [hus]; rfl
    have hF := from_wired hd hb hu g0
    have hfd := feeds_split hd hb hcov hnr hi u
    obtain ⟨e0, e1, hL, w0, w1⟩ := forall₂_two hF
    rw [hL] at h0 hfd
    have t0 : e0.1.dst = .comp (.unitSplit u 2) := by
      obtain ⟨j, s', h1, h2, h3⟩ := split_target hd hb hu hg hs (by simp) w0
      rw [hus] at h2
      match j, h2 with
      | 0, h2 => simp only [List.getElem?_cons_zero, Option.some.injEq] at h2; subst h2; simp at h3
      | 1, h2 => simp only [List.getElem?_cons_succ, List.getElem?_cons_zero, Option.some.injEq] at h2; subst h2; simp [Spec.snowSplitter] at h3
      | 2, _ => exact h1
      | j + 3, h2 => simp at h2
    have t1 : e1.1.dst = .comp (.unitSplit u 1) := by
      obtain ⟨j, s', h1, h2, h3⟩ := split_target hd hb hu hg hs (by simp) w1
      rw [hus] at h2
      match j, h2 with
      | 0, h2 => simp only [List.getElem?_cons_zero, Option.some.injEq] at h2; subst h2; simp at h3
      | 1, _ => exact h1
      | 2, h2 => simp only [List.getElem?_cons_succ, List.getElem?_cons_zero, Option.some.injEq] at h2; subst h2; simp [Spec.rainSplitter] at h3
      | j + 3, h2 => simp at h2
    rw [hl]
    simp only [List.range_succ, List.range_zero, List.nil_append, List.cons_append, List.map_cons, List.map_nil, List.sum_cons, List.sum_nil]
    rw [first _ g0 (by simp)]
    rw [pass_sum hd hb hcov hu (le_refl 1) g1 (amt := ph.amt) (a := ph.amt e1.2)
        (hpass 1 (le_refl 1) (by omega) _ (by rw [hfd]; simp [List.filter_cons, t0, t1])),
      pass_sum hd hb hcov hu (by omega) g2 (amt := ph.amt) (a := ph.amt e0.2)
        (hpass 2 (by omega) (by omega) _ (by rw [hfd]; simp [List.filter_cons, t0, t1]))]
    simp only [List.map_cons, List.map_nil, List.sum_cons, List.sum_nil] at h0
    rw [← h0]
    ring
  · rw [if_neg hw] at hus
    have g0 := congrArg (fun l => l[0]?) hus
    simp only [List.getElem?_cons_succ, List.getElem?_cons_zero] at g0
    have g1 := congrArg (fun l => l[1]?) hus
    simp only [List.getElem?_cons_succ, List.getElem?_cons_zero] at g1
    have hl : un.str.unitSplits.length = 2 := by rw [hus]; rfl
    have hF := from_wired hd hb hu g0
    have hfd := feeds_split hd hb hcov hnr hi u
    obtain ⟨e0, hL, w0⟩ := forall₂_one hF
    rw [hL] at h0 hfd
    have t0 : e0.1.dst = .comp (.unitSplit u 1) := by
      obtain ⟨j, s', h1, h2, h3⟩ := split_target hd hb hu hg hs (by simp) w0
      rw [hus] at h2
      match j, h2 with
      | 0, h2 => simp only [List.getElem?_cons_zero, Option.some.injEq] at h2; subst h2; simp at h3
      | 1, _ => exact h1
      | j + 2, h2 => simp at h2
    rw [hl]
    simp only [List.range_succ, List.range_zero, List.nil_append, List.cons_append, List.map_cons, List.map_nil, List.sum_cons, List.sum_nil]
    rw [first _ g0 (by simp)]
    rw [pass_sum hd hb hcov hu (le_refl 1) g1 (amt := ph.amt) (a := ph.amt e0.2)
          (hpass 1 (le_refl 1) (by omega) _ (by rw [hfd]; simp [List.filter_cons, t0]))]
    simp only [List.map_cons, List.map_nil, List.sum_cons, List.sum_nil] at h0
    rw [← h0]
    ring

end

/-! ## Over the units -/

theorem sum_by_key {α κ : Type} [DecidableEq κ] (key : α → κ) (g : α → K) (keys : List κ) (hnd : keys.Nodup) :
    ∀ l : List α, (∀ a ∈ l, key a ∈ keys ∨ g a = 0) →
    (l.map g).sum = (keys.map fun k => ((l.filter fun a => decide (key a = k)).map g).sum).sum := by
  intro l
  induction l with
  | nil => intro _; simp
  | cons a l ih =>
    intro h
    have one : ∀ ks : List κ, ks.Nodup → (ks.map fun k => if key a = k then g a else 0).sum = if key a ∈ ks then g a else 0 := by
      intro ks
      induction ks with
      | nil => intro _; simp
      | cons k ks ih2 =>
        intro hn
        obtain ⟨hn1, hn2⟩ := List.nodup_cons.1 hn
        rw [List.map_cons, List.sum_cons, ih2 hn2]
        by_cases hk : key a = k
        · subst hk
          simp [hn1]
        · simp [hk]
    rw [List.map_cons, List.sum_cons, ih fun b hb => h b (by simp [hb])]
    have e : (keys.map fun k => (((a :: l).filter fun a => decide (key a = k)).map g).sum) =
        keys.map fun k => (if key a = k then g a else 0) + ((l.filter fun a => decide (key a = k)).map g).sum := by
      apply List.map_congr_left
      intro k _
      by_cases hk : key a = k
      · simp [List.filter_cons, hk]
      · simp [List.filter_cons, hk]
    rw [e, ← sum_map_add', one keys hnd]
    rcases h a (by simp) with hk | hk
    · simp [hk]
    · simp [hk]

section
variable {inp : Input K} (hd : Spec.Described inp) {m : Wire.Model K} (hb : build inp = .ok m) {ext : ℕ → ℕ → K}
include hd hb

theorem handed_units (ph : Phys K) :
    Spec.volumeOf inp ext m handedOut ph = (inp.units.zipIdx.map fun uu => ((List.range uu.1.str.unitSplits.length).map fun j =>
      ((fromSplit m uu.2 j).map fun e => if handedOut e.1 then Spec.fluxArea inp ext e.1 * ph.amt e.2 else 0).sum).sum).sum := by
  unfold Spec.volumeOf
  rw [sum_by_key (fun e : Flux K × ℕ => e.1.src) _ (inp.units.zipIdx.flatMap fun uu => (List.range uu.1.str.unitSplits.length).map fun j => Comp.unitSplit uu.2 j)]
  · rw [List.map_flatMap, List.flatMap, List.sum_flatten, List.map_map]
    congr 1
    apply List.map_congr_left
    intro uu _
    simp only [Function.comp_apply, List.map_map]
    rfl
  · rw [List.nodup_flatMap]
    refine ⟨fun uu _ => List.nodup_range.map (fun a b h => by cases h; rfl), ?_⟩
    have := Asm.nodup_zipIdx_snd inp.units
    rw [List.Nodup, List.pairwise_map] at this
    refine this.imp fun {a b} hab x hx hy => ?_
    obtain ⟨i, -, rfl⟩ := List.mem_map.1 hx
    obtain ⟨i', -, he⟩ := List.mem_map.1 hy
    simp only [Comp.unitSplit.injEq] at he
    exact hab he.1.symm
  · intro e he
    have hf := Asm.mem_zipIdx' he
    rcases c57_only_declared (described_distinct hd) hb e.1 (List.mem_of_getElem? hf) with ⟨u', un', i, b, p, hs, -⟩ | ⟨u', un', i, s, hs, -, hu', hsp⟩ |
        ⟨i, b, p, hs, -⟩ | ⟨i, s, hs, -, hsp⟩
    · right; simp [handedOut, isSplit, hs]
    · left
      rw [hs]
      exact List.mem_flatMap.2 ⟨(un', u'), List.mem_zipIdx_iff_getElem?.2 hu', List.mem_map.2 ⟨i, List.mem_range.2 (List.getElem?_eq_some_iff.1 hsp).1, rfl⟩⟩
    · right; simp [handedOut, isSplit, hs]
    · rw [basin_splits hd] at hsp; simp at hsp

/-- In every time step what the splitters hand out is the precipitation of the step. -/
theorem step_precipitation {σ : Type} (hcov : Spec.Covered inp ext) (hnr : Spec.NoRedistribution inp) (hsep : Spec.Separates inp) {laws : Laws K σ} {sch : Scheme K σ}
    {tick : σ → σ} {time : σ → ℕ} {P : ℕ → ℕ → K} (hw : Spec.SplittersWork inp m laws time P) (hc : Spec.Clocked laws sch tick time) {dt : K}
    {g : Spec.Geo K} {S : Finset ℕ} (hff : FeedForward (Asm.asm inp m ext) g.C S)
    (hst : sch.staged = true → StageOK (Asm.asm inp m ext)) (hown : DirectOwn (Asm.asm inp m ext)) {s s' : Sys K σ}
    (hr : Ready (Asm.asm inp m ext) g S s.ph) (h : processTimeStep (Asm.asm inp m ext) laws sch dt s = .ok s')
    (hi : Asm.Idle inp m ext s'.ph) :
    Spec.volumeOf inp ext m handedOut s'.ph = Spec.precipitation inp P (time s.hid) := by
  rw [handed_units hd hb]
  unfold Spec.precipitation
  congr 1
  apply List.map_congr_left
  rintro ⟨un, u⟩ huu
  have hu := Asm.mem_zipIdx' huu
  dsimp only at hu ⊢
  have hmem : Asm.mkUnit m ext un u ∈ (Asm.asm inp m ext).units := List.mem_map.2 ⟨(un, u), huu, rfl⟩
  obtain ⟨s1, ht, hamt⟩ := step_splitters hc hff hst hown hr h hmem
  have hget : ∀ j < un.str.unitSplits.length, (Asm.mkUnit m ext un u).splitters[j]? = some (Nat.pair u j, (fromSplit m u j).map (·.2)) := by
    intro j hj
    unfold Asm.mkUnit
    simp only [List.getElem?_map, List.getElem?_zipIdx, List.getElem?_eq_getElem hj, Option.map_some, Nat.zero_add, from_ids hd hb]
  have hnd : ((Asm.mkUnit m ext un u).splitters.flatMap (·.2)).Nodup := by
    unfold Asm.mkUnit
    dsimp only
    rw [Asm.flatMap_map', List.nodup_flatMap]
    refine ⟨fun sk _ => Asm.nodup_ids _ _ _, ?_⟩
    have := Asm.nodup_zipIdx_snd un.str.unitSplits
    rw [List.Nodup, List.pairwise_map] at this
    refine this.imp fun {a b} hab x hx hy => ?_
    obtain ⟨f, hf, h1, -⟩ := Asm.mem_ids.1 hx
    obtain ⟨f', hf', h2, -⟩ := Asm.mem_ids.1 hy
    rw [hf] at hf'
    cases hf'
    rw [h1] at h2
    simp only [Comp.unitSplit.injEq, true_and] at h2
    exact hab h2
  obtain ⟨v, hg, hsv, -⟩ := unit_good hd hu
  have hscale : ∀ f ∈ (Asm.mkUnit m ext un u).splitters.flatMap (·.2), ∀ x, ((Asm.asm inp m ext).flux f).scale x = x := by
    intro k hk x
    obtain ⟨sp, hsp, hk⟩ := List.mem_flatMap.1 hk
    obtain ⟨⟨sq, j⟩, hsj, rfl⟩ := List.mem_map.1 hsp
    have hsj' := Asm.mem_zipIdx' hsj
    dsimp only at hk hsj'
    rw [← from_ids hd hb] at hk
    obtain ⟨e, he, rfl⟩ := List.mem_map.1 hk
    obtain ⟨o, ho, hwi⟩ := Asm.forall₂_mem (from_wired hd hb hu hsj') he
    have hout := Asm.mem_zipIdx' (List.mem_filter.1 he).1
    have hleave : ¬ Spec.LeavesUnit e.1.dst := by
      by_cases h1 : 1 ≤ j
      · obtain ⟨-, τ, hτ, hk⟩ := pass_outs hd hb hu hg hsv h1 hsj' ext
        rw [hτ] at ho
        obtain ⟨c, hc', rfl⟩ := List.mem_map.1 ho
        obtain ⟨k', hk'⟩ := List.mem_iff_getElem?.1 hc'
        obtain ⟨i', b, hi1, hi2, -⟩ := hk k' c hk'
        rw [brick_target hd hb hu hg hsv hi1 hi2 hwi]
        exact id
      · have h0 : j = 0 := by omega
        subst h0
        have ht : o.target ∈ ["rain_splitter", "snow_splitter"] := by
          rw [hsv, complete_unitSplits] at hsj'
          unfold Spec.base at hsj'
          dsimp only at hsj'
          split at hsj' <;> simp only [List.getElem?_cons_zero, Option.some.injEq] at hsj' <;> subst hsj' <;> simp at ho
          · rcases ho with rfl | rfl <;> simp
          · subst ho; simp
        obtain ⟨j', s', h2, -⟩ := split_target hd hb hu hg hsv ht hwi
        rw [h2]
        exact id
    rw [Asm.flux_some hout]
    unfold FluxSpec.scale Asm.fluxSpec
    simp only [hwi.weighted, hwi.inst, hwi.staying hleave]
    simp
  have hsplit := splitters_amt hc (Asm.mkUnit m ext un u).splitters s1 hnd hscale
  have hin : ∀ j < un.str.unitSplits.length, ∀ e ∈ fromSplit m u j,
      s'.ph.amt e.2 = ((Asm.mkUnit m ext un u).splitters.foldl (runSplitter (Asm.asm inp m ext) laws) s1).ph.amt e.2 := by
    intro j hj e he
    apply hamt
    exact List.mem_flatMap.2 ⟨_, List.mem_of_getElem? (hget j hj), List.mem_map.2 ⟨e, he, rfl⟩⟩
  have hlen : 1 ≤ un.str.unitSplits.length := by
    rw [hsv, complete_unitSplits]
    unfold Spec.base
    dsimp only
    split <;> simp
  refine unit_sum hd hb hcov hnr hi hu ?_ ?_
  · obtain ⟨h0, ph, hp1, hp2, -⟩ := hsplit 0 _ (hget 0 (by omega))
    have hs0 := List.getElem?_eq_getElem (show 0 < un.str.unitSplits.length by omega)
    have := hw.share u 0 un _ hu hs0 (hsep un (List.mem_of_getElem? hu) _ hs0) h0 ph
    rw [hp1, ht] at this
    rw [← this]
    unfold Spec.numbers
    change _ = (((fromSplit m u 0).map (·.2)).map _).sum
    rw [List.map_map]
    congr 1
    apply List.map_congr_left
    intro e he
    rw [hin 0 (by omega) e he, hp2 e.2 (List.mem_map.2 ⟨e, he, rfl⟩)]
    rfl
  · intro j hj1 hj2 k hk e he
    obtain ⟨hj, ph, hp1, hp2, hp3⟩ := hsplit j _ (hget j hj2)
    have hsj := List.getElem?_eq_getElem hj2
    obtain ⟨hty, -⟩ := pass_outs hd hb hu hg hsv hj1 hsj ext
    have hpass := hw.pass u j un _ hu hsj hty k hk hj ph e.2 (List.mem_map.2 ⟨e, he, rfl⟩)
    rw [hin j hj2 e he, hp2 e.2 (List.mem_map.2 ⟨e, he, rfl⟩), hpass]
    rw [feeds_split hd hb hcov hnr hi] at hk
    obtain ⟨e', he', rfl⟩ := List.mem_map.1 (List.mem_of_mem_head? hk)
    have he' := (List.mem_filter.1 he').1
    rw [hp3 0 _ (by omega) (hget 0 (by omega)) e'.2 (List.mem_map.2 ⟨e', he', rfl⟩), hin 0 (by omega) e' he']

end

end HB.Wire
