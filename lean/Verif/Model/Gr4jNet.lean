import Verif.Model.Gr4jBuilt
import Verif.Model.AssembleLemmas

/-!
# The network of the built GR4J

Which numbers the fluxes, containers, processes and splitters of `Model/Gr4jBuilt.lean` get in the network of the processor.
-/

set_option linter.unusedSectionVars false

namespace HB.Wire

open HB.Names

variable {K : Type}

/-- The numbers of unit `u`. -/
def grIds (u : ℕ) : GrIds where
  fr := 7 * u + 5
  fg := 7 * u + 6
  fi := 7 * u
  ft := 7 * u + 1
  fp := 7 * u + 2
  fe := 7 * u + 3
  fq := 7 * u + 4
  cg := Asm.contId (.unitBrick u 0) .water
  cs := Asm.contId (.unitBrick u 1) .water
  cr := Asm.contId (.unitBrick u 2) .water
  pi := Nat.pair (Asm.compCode (.unitBrick u 0)) 0
  pt := Nat.pair (Asm.compCode (.unitBrick u 0)) 1
  pp := Nat.pair (Asm.compCode (.unitBrick u 1)) 0
  pe := Nat.pair (Asm.compCode (.unitBrick u 1)) 1
  pq := Nat.pair (Asm.compCode (.unitBrick u 2)) 0
  s0 := Nat.pair u 0
  s1 := Nat.pair u 1

/-! ## Lists -/

theorem zipIdx_blocks {α β : Type} (F : α × ℕ → List β) (k : ℕ) (hF : ∀ a, (F a).length = k) : ∀ (l : List α) (n : ℕ),
    ((l.zipIdx n).flatMap F).zipIdx (k * n) = (l.zipIdx n).flatMap fun a => (F a).zipIdx (k * a.2) := by
  intro l
  induction l with
  | nil => intro n; rfl
  | cons a l ih =>
    intro n
    rw [List.zipIdx_cons, List.flatMap_cons, List.flatMap_cons, List.zipIdx_append, hF, ← ih (n + 1), Nat.mul_add, Nat.mul_one]

theorem flatMap_only {α β : Type} (G : α × ℕ → List β) {l : List α} {u : ℕ} {a : α} (hu : l[u]? = some a) (hG : ∀ x ∈ l.zipIdx, x.2 ≠ u → G x = []) :
    l.zipIdx.flatMap G = G (a, u) := by
  have key : ∀ (l : List α) (n : ℕ), (∀ x ∈ l.zipIdx n, x.2 ≠ u → G x = []) → ∀ i, n + i = u → l[i]? = some a → (l.zipIdx n).flatMap G = G (a, u) := by
    intro l
    induction l with
    | nil => intro n _ i _ h; simp at h
    | cons b l ih =>
      intro n hx i hi h
      rw [List.zipIdx_cons, List.flatMap_cons]
      cases i with
      | zero =>
        simp only [List.getElem?_cons_zero, Option.some.injEq] at h
        have hn : n = u := by omega
        subst h hn
        have : (l.zipIdx (n + 1)).flatMap G = [] := by
          rw [List.flatMap_eq_nil_iff]
          intro x hxm
          refine hx x (List.mem_cons_of_mem _ hxm) ?_
          have := List.le_snd_of_mem_zipIdx hxm
          omega
        rw [this, List.append_nil]
      | succ i =>
        have h0 : G (b, n) = [] := hx _ (by rw [List.zipIdx_cons]; exact List.mem_cons_self ..) (by dsimp only; omega)
        rw [h0, List.nil_append]
        exact ih (n + 1) (fun x hxm => hx x (by rw [List.zipIdx_cons]; exact List.mem_cons_of_mem _ hxm)) i (by omega) (by simpa using h)
  exact key l 0 hG u (by omega) hu

theorem filter_single {α : Type} {l : List α} (hn : l.Nodup) {p : α → Bool} {a : α} (ha : a ∈ l) (hp : p a = true) (hu : ∀ b ∈ l, p b = true → b = a) :
    l.filter p = [a] := by
  induction l with
  | nil => cases ha
  | cons b l ih =>
    obtain ⟨h1, h2⟩ := List.nodup_cons.1 hn
    by_cases hb : p b = true
    · have hba := hu b (List.mem_cons_self ..) hb
      subst hba
      rw [List.filter_cons_of_pos hb]
      congr 1
      rw [List.filter_eq_nil_iff]
      intro c hc hpc
      have := hu c (List.mem_cons_of_mem _ hc) hpc
      subst this
      exact h1 hc
    · rw [List.filter_cons_of_neg hb]
      rcases List.mem_cons.1 ha with rfl | ha
      · exact absurd hp hb
      · exact ih h2 ha fun c hc => hu c (List.mem_cons_of_mem _ hc)

/-! ## The fluxes by number -/

/-- The model is the discrete GR4J or GR6J: the structure and the fluxes of `Model/Gr4jBuilt.lean`. -/
structure IsGr [Field K] (six : Bool) (name type : String) (inp : Input K) (m : Wire.Model K) : Prop where
  built : build inp = .ok m
  outs : m.net.outs = inp.units.zipIdx.flatMap fun uu => grFluxes (uu.1.area / Spec.basinArea inp) uu.2
  units : ∀ un ∈ inp.units, un.str = grStruct six name type
  basin : inp.basin = grStruct six name type
  cls : buildBrick type = .ok .genericLandCover

section
variable [Field K] {six : Bool} {name type : String} {inp : Input K} {m : Wire.Model K} (h : IsGr six name type inp m)
include h

theorem IsGr.zip : m.net.outs.zipIdx = inp.units.zipIdx.flatMap fun uu => (grFluxes (uu.1.area / Spec.basinArea inp) uu.2).zipIdx (7 * uu.2) := by
  rw [h.outs]
  exact zipIdx_blocks (fun uu : UnitIn K × ℕ => grFluxes (uu.1.area / Spec.basinArea inp) uu.2) 7 (fun _ => rfl) inp.units 0

theorem IsGr.get {u : ℕ} {un : UnitIn K} (hu : inp.units[u]? = some un) {k : ℕ} {f : Flux K}
    (hk : (grFluxes (un.area / Spec.basinArea inp) u)[k]? = some f) : m.net.outs[7 * u + k]? = some f := by
  have : (f, 7 * u + k) ∈ m.net.outs.zipIdx := by
    rw [h.zip]
    refine List.mem_flatMap.2 ⟨(un, u), List.mem_zipIdx_iff_getElem?.2 hu, ?_⟩
    rw [List.mem_zipIdx_iff_le_and_getElem?_sub]
    refine ⟨Nat.le_add_right _ _, ?_⟩
    simpa using hk
  exact List.mem_zipIdx_iff_getElem?.1 this

theorem IsGr.cases {i : ℕ} {f : Flux K} (hi : m.net.outs[i]? = some f) : ∃ (u : ℕ) (un : UnitIn K) (k : ℕ), inp.units[u]? = some un ∧ i = 7 * u + k ∧
    (grFluxes (un.area / Spec.basinArea inp) u)[k]? = some f := by
  have hm : (f, i) ∈ m.net.outs.zipIdx := List.mem_zipIdx_iff_getElem?.2 hi
  rw [h.zip] at hm
  obtain ⟨⟨un, u⟩, hu, hf⟩ := List.mem_flatMap.1 hm
  rw [List.mem_zipIdx_iff_le_and_getElem?_sub] at hf
  exact ⟨u, un, i - 7 * u, List.mem_zipIdx_iff_getElem?.1 hu, by dsimp only at hf; omega, hf.2⟩

/-- The flux numbers satisfying a condition only fluxes of unit `u` meet. -/
theorem IsGr.only {u : ℕ} {un : UnitIn K} (hu : inp.units[u]? = some un) (P : Flux K × ℕ → Bool)
    (hP : ∀ (v : ℕ) (q : K), v ≠ u → ((grFluxes q v).zipIdx (7 * v)).filter P = []) :
    m.net.outs.zipIdx.filter P = ((grFluxes (un.area / Spec.basinArea inp) u).zipIdx (7 * u)).filter P := by
  rw [h.zip, List.filter_flatMap]
  exact flatMap_only (fun uu : UnitIn K × ℕ => ((grFluxes (uu.1.area / Spec.basinArea inp) uu.2).zipIdx (7 * uu.2)).filter P) hu
    fun x _ hx => hP x.2 _ hx

theorem IsGr.brick_ids {u : ℕ} (hu : u < inp.units.length) :
    Asm.ids m.net (.unitBrick u 0) 0 = [(grIds u).fi] ∧ Asm.ids m.net (.unitBrick u 0) 1 = [(grIds u).ft] ∧
    Asm.ids m.net (.unitBrick u 1) 0 = [(grIds u).fp] ∧ Asm.ids m.net (.unitBrick u 1) 1 = [(grIds u).fe] ∧
    Asm.ids m.net (.unitBrick u 2) 0 = [(grIds u).fq] ∧ Asm.ids m.net (.unitSplit u 0) 0 = [(grIds u).fr] ∧
    Asm.ids m.net (.unitSplit u 1) 0 = [(grIds u).fg] := by
  have hu' := List.getElem?_eq_getElem hu
  have key : ∀ (c : Comp) (j : ℕ), (∀ v q, v ≠ u → ((grFluxes (K := K) q v).zipIdx (7 * v)).filter (fun e => decide (e.1.src = c ∧ e.1.proc = j)) = []) →
      Asm.ids m.net c j = (((grFluxes (inp.units[u].area / Spec.basinArea inp) u).zipIdx (7 * u)).filter
        (fun e => decide (e.1.src = c ∧ e.1.proc = j))).map (·.2) := by
    intro c j hc
    unfold Asm.ids
    rw [h.only hu' _ hc]
  refine ⟨?_, ?_, ?_, ?_, ?_, ?_, ?_⟩
  all_goals
    rw [key]
    · simp [grFluxes, grIds]
    · intro v q hv
      simp [grFluxes, hv]

end

/-! ## The network -/

section
variable [Field K] [LinearOrder K] [IsStrictOrderedRing K] {six : Bool} {name type : String} {inp : Input K} {m : Wire.Model K}
  (h : IsGr six name type inp m) {ext : ℕ → ℕ → K}
include h

theorem IsGr.flux {u : ℕ} {un : UnitIn K} (hu : inp.units[u]? = some un) {k : ℕ} {f : Flux K}
    (hk : (grFluxes (un.area / Spec.basinArea inp) u)[k]? = some f) : (Asm.asm inp m ext).flux (7 * u + k) = Asm.fluxSpec inp ext f := by
  unfold Asm.asm
  dsimp only
  rw [h.get hu hk]

/-- What flows into a container: the fluxes of that target. -/
theorem IsGr.inputs {u : ℕ} (hu : u < inp.units.length) : (Asm.asm inp m ext).inputs (grIds u).cg = [(grIds u).fg] ∧
    (Asm.asm inp m ext).inputs (grIds u).cs = [(grIds u).ft] ∧ (Asm.asm inp m ext).inputs (grIds u).cr = [(grIds u).fp] := by
  have hu' := List.getElem?_eq_getElem hu
  have key : ∀ (i k : ℕ) (f : Flux K), (grFluxes (inp.units[u].area / Spec.basinArea inp) u)[k]? = some f → f.dst = .comp (.unitBrick u i) →
      f.content = .water → (∀ (v : ℕ) (q : K) (k' : ℕ) (f' : Flux K), (grFluxes q v)[k']? = some f' → f'.dst = .comp (.unitBrick u i) → v = u ∧ k' = k) →
      (Asm.asm inp m ext).inputs (Asm.contId (.unitBrick u i) .water) = [7 * u + k] := by
    intro i k f hf hdst hw hun
    unfold HB.Net.inputs
    refine filter_single List.nodup_range (List.mem_range.2 (List.getElem?_eq_some_iff.1 (h.get hu' hf)).1) ?_ ?_
    · rw [h.flux hu' hf]
      simp [Asm.fluxSpec, hdst, hw, Asm.storeOfContent]
    · intro g hg hgt
      have hg' := List.getElem?_eq_getElem (List.mem_range.1 hg)
      obtain ⟨v, un, k', hv, rfl, hk'⟩ := h.cases hg'
      rw [h.flux hv hk', decide_eq_true_eq] at hgt
      generalize m.net.outs[7 * v + k']'(List.mem_range.1 hg) = f' at hk' hgt
      have hd : f'.dst = .comp (.unitBrick u i) := by
        unfold Asm.fluxSpec at hgt
        dsimp only at hgt
        split at hgt
        · rename_i w j hw'
          simp only [Target.cont.injEq] at hgt
          rw [hw', (Asm.contId_inj (c := .unitBrick w j) (c' := .unitBrick u i) trivial trivial hgt).1]
        · rename_i j hw'
          simp only [Target.cont.injEq] at hgt
          rw [hw', (Asm.contId_inj (c := .basinBrick j) (c' := .unitBrick u i) trivial trivial hgt).1]
        · cases hgt
      obtain ⟨rfl, rfl⟩ := hun v _ k' f' hk' hd
      rfl
  have hk7 : ∀ (q : K) (v k : ℕ) (f : Flux K), (grFluxes q v)[k]? = some f → k < 7 := fun q v k f hf => (List.getElem?_eq_some_iff.1 hf).1
  refine ⟨key 0 6 _ rfl rfl rfl ?_, key 1 1 _ rfl rfl rfl ?_, key 2 2 _ rfl rfl rfl ?_⟩
  all_goals
    intro v q k f hf hd
    have := hk7 q v k f hf
    rcases (by omega : k = 0 ∨ k = 1 ∨ k = 2 ∨ k = 3 ∨ k = 4 ∨ k = 5 ∨ k = 6) with rfl | rfl | rfl | rfl | rfl | rfl | rfl
    all_goals
      simp only [grFluxes, List.getElem?_cons_zero, List.getElem?_cons_succ, Option.some.injEq] at hf
      subst hf
      simp_all

theorem IsGr.clsOf : Asm.clsOf ⟨name, type, "", [⟨"interception", "interception:gr4j", []⟩,
      ⟨"throughfall", "outflow:rest", [⟨"production_store", .water, true, true⟩]⟩], false⟩ = .genericLandCover := by
  unfold Asm.clsOf
  dsimp only
  rw [h.cls]

theorem IsGr.noOverflow (c : ℕ) : (Asm.asm inp m ext).ovf c = none := by
  have hnil : ((Asm.allBricks inp).flatMap fun cb => cb.2.procs.zipIdx.filterMap fun pj =>
      if pj.1.type = "overflow" then (Asm.ids m.net cb.1 pj.2).head?.map fun f => (Asm.contId cb.1 .water, f) else none) = [] := by
    rw [List.flatMap_eq_nil_iff]
    intro cb hcb
    rw [List.filterMap_eq_nil_iff]
    intro pj hpj
    rw [if_neg]
    unfold Asm.allBricks at hcb
    rw [h.basin] at hcb
    simp only [grStruct, List.zipIdx_nil, List.map_nil, List.append_nil] at hcb
    obtain ⟨uu, huu, hb⟩ := List.mem_flatMap.1 hcb
    obtain ⟨bi, hbi, rfl⟩ := List.mem_map.1 hb
    have hun : uu.1 ∈ inp.units := List.fst_mem_of_mem_zipIdx huu
    rw [h.units _ hun] at hbi
    simp only [grStruct, List.zipIdx_cons, List.zipIdx_nil, List.mem_cons, List.not_mem_nil, or_false] at hbi
    rcases hbi with rfl | rfl | rfl <;>
      simp only [List.zipIdx_cons, List.zipIdx_nil, List.mem_cons, List.not_mem_nil, or_false] at hpj
    · rcases hpj with rfl | rfl <;> decide
    · rcases hpj with rfl | rfl <;> decide
    · subst hpj
      cases six <;> decide
  change Asm.overflowOf inp m.net c = none
  unfold Asm.overflowOf
  rw [hnil]
  rfl

end

section
variable {six : Bool} {name type : String} {inp : Input ℝ} {m : Wire.Model ℝ} (h : IsGr six name type inp m) {ext : ℕ → ℕ → ℝ}
include h

theorem IsGr.lay (hext : ∀ u < inp.units.length, ext u 0 = 1) {u : ℕ} (hu : u < inp.units.length) : GrLay (Asm.asm inp m ext) (grIds u) := by
  have hu' := List.getElem?_eq_getElem hu
  have hl : Asm.landFrac inp ext (.unitBrick u 0) = 1 := by
    unfold Asm.landFrac
    dsimp only
    rw [hu', Option.bind_some, h.units _ (List.getElem_mem hu)]
    simp [grStruct, h.clsOf, Asm.isCover, hext u hu]
  obtain ⟨i1, i2, i3⟩ := h.inputs (ext := ext) hu
  have f0 := h.flux (ext := ext) hu' (k := 0) rfl
  have f1 := h.flux (ext := ext) hu' (k := 1) rfl
  have f2 := h.flux (ext := ext) hu' (k := 2) rfl
  have f3 := h.flux (ext := ext) hu' (k := 3) rfl
  have f4 := h.flux (ext := ext) hu' (k := 4) rfl
  have f5 := h.flux (ext := ext) hu' (k := 5) rfl
  have f6 := h.flux (ext := ext) hu' (k := 6) rfl
  have hne : ∀ i j : ℕ, i ≠ j → Asm.contId (.unitBrick u i) .water ≠ Asm.contId (.unitBrick u j) .water := by
    intro i j hij he
    have := (Asm.contId_inj (c := .unitBrick u i) (c' := .unitBrick u j) trivial trivial he).1
    simp only [Comp.unitBrick.injEq, true_and] at this
    exact hij this
  refine ⟨?_, ?_, ?_, ?_, ?_, ?_, ?_, ?_, ?_, i1, i2, i3, h.noOverflow _, h.noOverflow _, h.noOverflow _⟩
  · simp [grIds, GrIds.fluxes]
  · simp [grIds, GrIds.conts, hne]
  · change ((Asm.asm inp m ext).flux (7 * u + 5)).inst = _ ∧ ((Asm.asm inp m ext).flux (7 * u + 5)).frac = _
    rw [f5]
    simp [Asm.fluxSpec]
  · change ((Asm.asm inp m ext).flux (7 * u + 6)).inst = _ ∧ ((Asm.asm inp m ext).flux (7 * u + 6)).frac = _ ∧
      ((Asm.asm inp m ext).flux (7 * u + 6)).static = _
    rw [f6]
    simp [Asm.fluxSpec]
  · change ((Asm.asm inp m ext).flux (7 * u + 0)).inst = _
    rw [f0]
    rfl
  · change ((Asm.asm inp m ext).flux (7 * u + 1)).inst = _ ∧ ((Asm.asm inp m ext).flux (7 * u + 1)).frac = _ ∧
      ((Asm.asm inp m ext).flux (7 * u + 1)).target = _
    rw [f1]
    simp [Asm.fluxSpec, hl, Asm.storeOfContent, grIds]
  · change ((Asm.asm inp m ext).flux (7 * u + 2)).inst = _ ∧ ((Asm.asm inp m ext).flux (7 * u + 2)).frac = _ ∧
      ((Asm.asm inp m ext).flux (7 * u + 2)).static = _
    rw [f2]
    simp [Asm.fluxSpec]
  · change ((Asm.asm inp m ext).flux (7 * u + 3)).inst = _
    rw [f3]
    rfl
  · change ((Asm.asm inp m ext).flux (7 * u + 4)).inst = _
    rw [f4]
    rfl

/-- The discharge flux carries the share of the unit. -/
theorem IsGr.share {u : ℕ} {un : UnitIn ℝ} (hu : inp.units[u]? = some un) :
    ((Asm.asm inp m ext).flux (grIds u).fq).inst = false ∧ ((Asm.asm inp m ext).flux (grIds u).fq).frac = un.area / Spec.basinArea inp := by
  have f4 := h.flux (ext := ext) hu (k := 4) rfl
  change ((Asm.asm inp m ext).flux (7 * u + 4)).inst = _ ∧ ((Asm.asm inp m ext).flux (7 * u + 4)).frac = _
  rw [f4]
  simp [Asm.fluxSpec]

theorem zipIdx_map_range {α β : Type} (g : ℕ → β) (l : List α) : l.zipIdx.map (fun x => g x.2) = (List.range l.length).map g := by
  rw [List.range_eq_range', ← List.zipIdx_map_snd 0 l, List.map_map]
  rfl

/-- The network: the units, nothing to solve, the outlet. -/
theorem IsGr.shape (hext : ∀ u < inp.units.length, ext u 0 = 1) :
    (Asm.asm inp m ext).units = (List.range inp.units.length).map (fun u => (grIds u).unit) ∧ (Asm.asm inp m ext).solver = [] ∧
    (Asm.asm inp m ext).outlet = (List.range inp.units.length).map fun u => (grIds u).fq := by
  have hcl := h.clsOf
  have hb : Asm.unitBricks (grStruct six name type) = [(0, ⟨name, type, "", [⟨"interception", "interception:gr4j", []⟩,
      ⟨"throughfall", "outflow:rest", [⟨"production_store", .water, true, true⟩]⟩], false⟩),
     (1, ⟨"production_store", "storage", "", [⟨"production", "production:gr4j", [⟨"uh_input", .water, false, false⟩]⟩, ⟨"et", "et:gr4j", []⟩], true⟩),
     (2, ⟨"uh_input", "storage", "", [⟨"routing", if six then "routing:gr6j" else "routing:gr4j", [⟨"outlet", .water, false, false⟩]⟩], true⟩)] := rfl
  have hfilt : (Asm.unitBricks (grStruct six name type)).filter (fun ib => Asm.isDirect ib.2) = Asm.unitBricks (grStruct six name type) := by
    rw [hb]
    simp [Asm.isDirect, hcl, canHaveFraction]
  have hfilt' : (Asm.unitBricks (grStruct six name type)).filter (fun ib => !Asm.isDirect ib.2) = [] := by
    rw [hb]
    simp [Asm.isDirect, hcl, canHaveFraction]
  refine ⟨?_, ?_, ?_⟩
  · change inp.units.zipIdx.map (fun uu => Asm.mkUnit m ext uu.1 uu.2) = _
    rw [← zipIdx_map_range h]
    apply List.map_congr_left
    rintro ⟨un, u⟩ hx
    have hu := List.mem_zipIdx_iff_getElem?.1 hx
    dsimp only at hu ⊢
    have hlt := (List.getElem?_eq_some_iff.1 hu).1
    obtain ⟨j0, j1, j2, j3, j4, j5, j6⟩ := h.brick_ids hlt
    unfold Asm.mkUnit
    rw [h.units _ (List.mem_of_getElem? hu), hfilt, hb]
    have hnull : nearlyZero (ext u 0) prec = false := by
      rw [hext u hlt]
      unfold nearlyZero prec
      norm_num
    have hps : ∀ p : Wire.Proc, (p.type = "interception:gr4j" ∨ p.type = "outflow:rest") →
        Asm.procStore ⟨name, type, "", [⟨"interception", "interception:gr4j", []⟩,
          ⟨"throughfall", "outflow:rest", [⟨"production_store", .water, true, true⟩]⟩], false⟩ p = .water := by
      intro p hp
      unfold Asm.procStore
      rw [hcl]
      rcases hp with e | e <;> rw [e] <;> rfl
    have hps2 : Asm.procStore ⟨"uh_input", "storage", "", [⟨"routing", if six then "routing:gr6j" else "routing:gr4j", [⟨"outlet", .water, false, false⟩]⟩], true⟩
        ⟨"routing", if six then "routing:gr6j" else "routing:gr4j", [⟨"outlet", .water, false, false⟩]⟩ = .water := by
      cases six <;> rfl
    have hn1 : Asm.isNull m ext u (grStruct six name type) (0, ⟨name, type, "", [⟨"interception", "interception:gr4j", []⟩,
          ⟨"throughfall", "outflow:rest", [⟨"production_store", .water, true, true⟩]⟩], false⟩) = false := by
      unfold Asm.isNull
      rw [hcl]
      exact hnull
    simp only [GrIds.unit, HUnit.mk.injEq]
    constructor
    · simp [grStruct, j5, j6, grIds]
    · simp only [List.map_cons, List.map_nil, Asm.mkBrick, Asm.procsOf, hcl, hn1, List.zipIdx_cons, List.zipIdx_nil, j0, j1, j2, j3, j4,
        GrIds.ground, GrIds.store, GrIds.uh, Nat.zero_add, hps2]
      rw [hps _ (.inl rfl), hps _ (.inr rfl)]
      rfl
  · change Asm.mkSolver inp m = []
    unfold Asm.mkSolver
    rw [h.basin]
    simp only [grStruct, List.zipIdx_nil, List.map_nil, List.append_nil]
    rw [List.flatMap_eq_nil_iff]
    intro uu huu
    rw [h.units _ (List.fst_mem_of_mem_zipIdx huu), hfilt']
    rfl
  · change (m.net.outs.zipIdx.filter fun e => decide (e.1.dst = .outlet)).map (·.2) = _
    rw [h.zip, List.filter_flatMap, List.map_flatMap, ← zipIdx_map_range h]
    rw [List.map_eq_flatMap]
    congr 1

end

end HB.Wire
