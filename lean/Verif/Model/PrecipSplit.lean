import Verif.Model.PrecipRun
import Verif.Model.Laws
import Verif.Props.LawsSnow

/-!
# The splitters of a built model

`HydroUnit::GetSplitter(i)->Compute()` for the splitters of a built model: which amounts go to which of its fluxes.
-/

set_option linter.unusedSectionVars false

namespace HB.Wire

open HB.Names

variable {K σ : Type}

/-- What a splitter that hands on reads: the amount of its first input (SplitterMultiFluxes.cpp:38; without input the code stops
or reads out of bounds, excluded by `IsValid`, C62). -/
def firstInput [Zero K] (m : Wire.Model K) (u j : ℕ) (ph : Phys K) : K :=
  ((Spec.numbers m fun f => decide (f.dst = .comp (.unitSplit u j))).head?.map ph.amt).getD 0

/-- The splitters of the units, with their positions. -/
def allSplits (inp : Input K) : List (ℕ × ℕ × Split) :=
  inp.units.zipIdx.flatMap fun uu => uu.1.str.unitSplits.zipIdx.map fun sj => (uu.2, sj.2, sj.1)

/-- The splitter with the number it has in the network. -/
def splitOf (inp : Input K) (p : ℕ) : Option (ℕ × ℕ × Split) := (allSplits inp).find? fun x => decide (Nat.pair x.1 x.2.1 = p)

theorem splitOf_pair {inp : Input K} {u j : ℕ} {un : UnitIn K} {s : Split} (hu : inp.units[u]? = some un) (hs : un.str.unitSplits[j]? = some s) :
    splitOf inp (Nat.pair u j) = some (u, j, s) := by
  have hall : ∀ x ∈ allSplits inp, Nat.pair x.1 x.2.1 = Nat.pair u j → x = (u, j, s) := by
    intro x hx he
    obtain ⟨⟨un', u'⟩, hu', hx⟩ := List.mem_flatMap.1 hx
    obtain ⟨⟨s', j'⟩, hs', rfl⟩ := List.mem_map.1 hx
    obtain ⟨rfl, rfl⟩ := Nat.pair_eq_pair.1 he
    have h1 := List.mem_zipIdx_iff_getElem?.1 hu'
    have h2 := List.mem_zipIdx_iff_getElem?.1 hs'
    dsimp only at h1 h2 ⊢
    rw [hu] at h1
    cases h1
    rw [hs] at h2
    cases h2
    rfl
  have hmem : (u, j, s) ∈ allSplits inp :=
    List.mem_flatMap.2 ⟨(un, u), List.mem_zipIdx_iff_getElem?.2 hu, List.mem_map.2 ⟨(s, j), List.mem_zipIdx_iff_getElem?.2 hs, rfl⟩⟩
  unfold splitOf
  cases hf : (allSplits inp).find? fun x => decide (Nat.pair x.1 x.2.1 = Nat.pair u j) with
  | none => exact absurd (List.find?_eq_none.1 hf _ hmem) (by simp)
  | some x =>
    have h1 := List.find?_some hf
    rw [hall x (List.mem_of_find?_eq_some hf) (by simpa using h1)]

/-- The process laws with splitters that compute: `multi_fluxes` hands on (SplitterMultiFluxes.cpp:35-40), the others update their
outputs with the given amounts, in order.  `share ty u t`: amounts of a splitter of type `ty` of unit `u` at time `t`. -/
def withSplitters [Zero K] (inp : Input K) (m : Wire.Model K) (time : σ → ℕ) (share : String → ℕ → ℕ → List K) (laws : Laws K σ) : Laws K σ :=
  { laws with
    split := fun p h ph =>
      match splitOf inp p with
      | none => (fun _ => 0, h)
      | some (u, j, s) =>
        let outs := Spec.numbers m fun f => decide (f.src = .unitSplit u j)
        let vals := if s.type = "multi_fluxes" then outs.map fun _ => firstInput m u j ph else share s.type u (time h)
        (fun i => ((outs.zip vals).lookup i).getD 0, h) }

theorem lookup_zip [Zero K] : ∀ (l : List ℕ) (vals : List K), l.Nodup → l.length = vals.length →
    l.map (fun i => ((l.zip vals).lookup i).getD 0) = vals := by
  intro l
  induction l with
  | nil => intro vals _ h; cases vals <;> simp_all
  | cons a l ih =>
    intro vals hn hl
    cases vals with
    | nil => simp at hl
    | cons v vals =>
      obtain ⟨h1, h2⟩ := List.nodup_cons.1 hn
      simp only [List.map_cons, List.zip_cons_cons, List.lookup_cons, beq_self_eq_true, Option.getD_some, List.cons.injEq, true_and]
      rw [← ih vals h2 (by simpa using hl)]
      apply List.map_congr_left
      intro i hi
      have : (i == a) = false := by
        rw [beq_eq_false_iff_ne]
        rintro rfl
        exact h1 hi
      rw [this, ih vals h2 (by simpa using hl)]

/-- What falls on a unit: the amounts its first splitter hands out. -/
def fallen [Field K] (inp : Input K) (share : String → ℕ → ℕ → List K) (u t : ℕ) : K :=
  ((inp.units[u]?.bind fun un => un.str.unitSplits[0]?).map fun s => (share s.type u t).sum).getD 0

section
variable [Field K] [LinearOrder K] [IsStrictOrderedRing K] {inp : Input K} (hd : Spec.Described inp) {m : Wire.Model K} (hb : build inp = .ok m)
include hd hb

theorem numbers_from (u j : ℕ) : (Spec.numbers m fun f => decide (f.src = .unitSplit u j)) = (fromSplit m u j).map (·.2) := rfl

theorem numbers_nodup (P : Flux K → Bool) : (Spec.numbers m P).Nodup :=
  (Asm.nodup_zipIdx_snd m.net.outs).sublist (List.filter_sublist.map _)

/-- The splitters work if each hands out as many amounts as it has outputs. -/
theorem splitters_work {time : σ → ℕ} {share : String → ℕ → ℕ → List K} {laws : Laws K σ}
    (hlen : ∀ (u : ℕ) (un : UnitIn K) (s : Split), inp.units[u]? = some un → un.str.unitSplits[0]? = some s → s.type ≠ "multi_fluxes" →
      ∀ t, (share s.type u t).length = s.outs.length) :
    Spec.SplittersWork inp m (withSplitters inp m time share laws) time (fallen inp share) := by
  constructor
  · intro u j un s hu hsp hty h ph
    have hj : j = 0 := by
      by_contra h0
      obtain ⟨v, hg, hsv, -⟩ := unit_good hd hu
      exact hty (pass_outs hd hb hu hg hsv (by omega) hsp (fun _ _ => 0)).1
    subst hj
    have hl : (Spec.numbers m fun f => decide (f.src = .unitSplit u 0)).length = s.outs.length := by
      rw [numbers_from hd hb, List.length_map, (from_wired hd hb hu hsp).length_eq]
    simp only [withSplitters, splitOf_pair hu hsp, if_neg hty]
    rw [lookup_zip _ _ (numbers_nodup hd hb _) (by rw [hl, hlen u un s hu hsp hty])]
    simp [fallen, hu, hsp]
  · intro u j un s hu hsp hty k hk h ph i hi
    simp only [withSplitters, splitOf_pair hu hsp, if_pos hty]
    have := lookup_zip (K := K) (Spec.numbers m fun f => decide (f.src = .unitSplit u j))
      ((Spec.numbers m fun f => decide (f.src = .unitSplit u j)).map fun _ => firstInput m u j ph) (numbers_nodup hd hb _) (by simp)
    rw [List.map_inj_left] at this
    rw [this i hi]
    simp [firstInput, hk]

end

/-- The clock is that of the laws underneath. -/
theorem withSplitters_clocked [Field K] {inp : Input K} {m : Wire.Model K} {time : σ → ℕ} {share : String → ℕ → ℕ → List K} {laws : Laws K σ}
    {sch : Scheme K σ} {tick : σ → σ} (h : Spec.Clocked laws sch tick time) : Spec.Clocked (withSplitters inp m time share laws) sch tick time :=
  ⟨h.rates, h.fin, fun p hh ph => by simp only [withSplitters]; split <;> rfl, h.solver, h.tick⟩

/-! ## The actual splitters -/

/-- Weather of a unit at a time, and what its splitters need to know. -/
structure Weather where
  P : ℝ
  T : ℝ
  tMin : ℝ
  tMax : ℝ
  elevation : ℝ
  threshold : ℝ
  transitionStart : ℝ
  transitionEnd : ℝ
  rcf : ℝ
  scf : ℝ

/-- The amounts given to the outputs of a splitter, in order: rain, snow (SplitterSnowRainThreshold.cpp:45-54,
SplitterSnowRainLinear.cpp:49-64, SplitterSnowRainCemaNeige.cpp:80-117, SplitterRain.cpp:37-39). -/
noncomputable def splitAmounts (ty : String) (w : Weather) : List ℝ :=
  if ty = "snow_rain:threshold" then [(splitThreshold w.P w.T w.threshold w.rcf w.scf).1, (splitThreshold w.P w.T w.threshold w.rcf w.scf).2]
  else if ty = "snow_rain:linear" then
    [(splitLinear w.P w.T w.transitionStart w.transitionEnd w.rcf w.scf).1, (splitLinear w.P w.T w.transitionStart w.transitionEnd w.rcf w.scf).2]
  else if ty = "snow_rain:cemaneige" then
    [(splitCema w.P w.elevation w.T w.tMin w.tMax w.rcf w.scf).1, (splitCema w.P w.elevation w.T w.tMin w.tMax w.rcf w.scf).2]
  else [splitRain w.P w.rcf]

/-- The rain/snow separations. -/
def snowRainNames : List String := ["snow_rain:threshold", "snow_rain:linear", "snow_rain:cemaneige"]

theorem splitAmounts_sum {ty : String} {w : Weather} (h1 : w.rcf = 1) (h2 : w.scf = 1) : (splitAmounts ty w).sum = w.P := by
  unfold splitAmounts splitThreshold splitLinear splitCema splitRain
  rw [h1, h2]
  split
  · split <;> simp
  · split
    · split
      · simp
      · split
        · simp
        · simp; ring
    · split
      · simp; ring
      · simp

theorem splitAmounts_length {ty : String} {w : Weather} : (splitAmounts ty w).length = if ty ∈ snowRainNames then 2 else 1 := by
  unfold splitAmounts snowRainNames
  by_cases h1 : ty = "snow_rain:threshold"
  · subst h1; simp
  · by_cases h2 : ty = "snow_rain:linear"
    · subst h2; simp
    · by_cases h3 : ty = "snow_rain:cemaneige"
      · subst h3; simp
      · simp [h1, h2, h3]

/-- With snow, rain and snow are separated. -/
def SeparatesSnow (v : Variant) : Prop := v.base.withSnow = true → v.base.splitter ∈ snowRainNames

theorem separatesRain_of {v : Variant} (h : SeparatesSnow v) : SeparatesRain v := by
  intro hw he
  have := h hw
  rw [he] at this
  revert this
  decide

section
variable {vs : List Variant} {bas : List String} (h : GoodModel vs bas) {inp : Input ℝ} (hm : Spec.FromModel vs inp)
include h hm

theorem actual_splitters (hl : (∃ v ∈ vs, v.base.redistribution ≠ none) → Spec.LateralGiven inp) (hs : ∀ v ∈ vs, SeparatesSnow v)
    {m : Wire.Model ℝ} (hb : build inp = .ok m) (time : σ → ℕ) (weather : ℕ → ℕ → Weather) (laws : Laws ℝ σ) :
    Spec.SplittersWork inp m (withSplitters inp m time (fun ty u t => splitAmounts ty (weather u t)) laws) time
      (fallen inp fun ty u t => splitAmounts ty (weather u t)) := by
  refine splitters_work (described h hm hl) hb ?_
  intro u un s hu hsp hty t
  obtain ⟨v, hv, hg, hsv⟩ := unit_from h hm hu
  rw [hsv, complete_unitSplits] at hsp
  unfold Spec.base at hsp
  dsimp only at hsp
  rw [splitAmounts_length]
  split at hsp <;> simp only [List.getElem?_cons_zero, Option.some.injEq] at hsp <;> subst hsp
  · rw [if_pos (hs v hv (by assumption))]; rfl
  · rw [if_neg (by change "rain" ∉ _; decide)]; rfl

omit h in
theorem fallen_eq (h : GoodModel vs bas) {weather : ℕ → ℕ → Weather} (hf : ∀ u t, (weather u t).rcf = 1 ∧ (weather u t).scf = 1) {u : ℕ}
    (hu : u < inp.units.length) (t : ℕ) : fallen inp (fun ty u t => splitAmounts ty (weather u t)) u t = (weather u t).P := by
  have hu' := List.getElem?_eq_getElem hu
  obtain ⟨v, hv, hg, hsv⟩ := unit_from h hm hu'
  have : ∃ s, inp.units[u].str.unitSplits[0]? = some s := by
    rw [hsv, complete_unitSplits]
    unfold Spec.base
    dsimp only
    split <;> exact ⟨_, rfl⟩
  obtain ⟨s, hs⟩ := this
  simp only [fallen, hu', Option.bind_some, hs, Option.map_some, Option.getD_some]
  exact splitAmounts_sum (hf u t).1 (hf u t).2

end

theorem defaultSplitter_mem (melt : String) : defaultSplitter melt ∈ snowRainNames := by unfold defaultSplitter; split <;> decide

theorem socont_snow {o : SocontOpts} {cs : List PyCover} : ∀ v ∈ socont o cs, SeparatesSnow v := by
  intro v hv _
  obtain ⟨cs', h⟩ := splitGlaciers_base hv
  rw [h]
  exact defaultSplitter_mem _

theorem hbv_snow {o : HbvOpts} {cs : List PyCover} : ∀ v ∈ hbv96 o cs, SeparatesSnow v := by
  intro v hv _
  unfold hbv96 at hv
  split at hv
  · simp at hv
  · rcases List.mem_append.1 hv with hv | hv
    · obtain ⟨cs', h⟩ := splitGlaciers_base hv
      rw [h]
      exact defaultSplitter_mem _
    · split at hv
      · simp at hv
      · simp at hv
        subst hv
        change "snow_rain:linear" ∈ _
        decide

theorem gr_snow {o : GrOpts} (ho : ∀ s ∈ o.snowRain, s ∈ snowRainNames) {cs : List PyCover} : ∀ v ∈ gr o cs, SeparatesSnow v := by
  intro v hv _
  have : v.base = grArgs o cs := by
    unfold gr at hv
    split at hv <;> simp at hv
    subst hv
    rfl
  rw [this]
  unfold grArgs
  dsimp only
  split
  · rename_i s hs
    exact ho s (by rw [hs]; rfl)
  · exact defaultSplitter_mem _

end HB.Wire
