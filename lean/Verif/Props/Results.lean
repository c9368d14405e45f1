import Verif.Model.ResultsLemmas
import Verif.Props.Totals

/-!
# C75 — a results file gives back what was recorded
-/
set_option linter.unusedSectionVars false

namespace HB

open Finset HB.Spec HB.Results

section
variable {K : Type} [Field K]

/-- A run can be written, and the file holds the recorded dates, units, areas and sub-basin series. -/
theorem c75_file (fill : Option K) (R : Recorded K) : ∃ F, write fill R = .ok F ∧
    F.times = (List.range R.tab.rows).map R.date ∧ F.ids = (List.range R.tab.units).map R.ids ∧
    F.areas = (List.range R.tab.units).map R.tab.areas ∧ F.labelsAgg = R.tab.basinLabels ∧
    F.labelsDist = R.tab.unitLabels ∧
    ∀ i < R.tab.basinLabels.length, ∀ t < R.tab.rows, F.basinVals.val i t = R.tab.basinVals i t := by
  obtain ⟨F, hF, h⟩ := write_holds fill R
  exact ⟨F, hF, h.times, h.ids, h.areas, h.agg, h.dist, h.basin⟩

theorem holds_of_write {fill : Option K} {R : Recorded K} {F : File K} (h : write fill R = .ok F) : Holds R F := by
  obtain ⟨F', hF', hh⟩ := write_holds fill R
  rw [h] at hF'
  cases hF'
  exact hh

/-- Values read at a resolved position. -/
theorem unitsValues_at {R : Recorded K} {F : File K} (h : Holds R F) (hd : Dated R) (component : String) (i : ℕ)
    (hi : i < R.tab.unitLabels.length) (hr : resolve F component = .ok i) (s e : Option ℤ) (hav : Available R s e) :
    ∃ A, unitsValues F component s e = .ok A ∧
      Shows R [R.tab.units] (fun idx t x => x = R.tab.unitVals i t (idx.headD 0)) A s e := by
  obtain ⟨A, hA, sA⟩ := sheet_shows R F.unitVals i (by rw [h.unitDims.1]; exact hi) h.unitDims.2.1 h.unitDims.2.2
    (fun u t => R.tab.unitVals i t u) (h.unit i hi)
  obtain ⟨B, hB, sB⟩ := select_shows R F h.times hd _ _ A sA s e hav
  refine ⟨B, ?_, sB⟩
  rw [unitsValues, hr]
  simp only [Except.bind, hA]
  exact hB

theorem resolve_exact {R : Recorded K} {F : File K} (h : Holds R F) (hn : R.tab.unitLabels.Nodup) (i : ℕ) (label : String)
    (hl : R.tab.unitLabels[i]? = some label) : resolve F label = .ok i := by
  simp only [resolve, distLabels_eq, h.dist]
  rw [if_pos (List.mem_of_getElem? hl), idxOf_of_getElem? hn hl]

/-- The series of a label is the one that was recorded under it, for every unit and every requested date. -/
theorem c75_values (fill : Option K) (R : Recorded K) (hd : Dated R) (hn : R.tab.unitLabels.Nodup) (F : File K)
    (hF : write fill R = .ok F) (i : ℕ) (label : String) (hl : R.tab.unitLabels[i]? = some label) (s e : Option ℤ)
    (hav : Available R s e) : ∃ A, unitsValues F label s e = .ok A ∧
      Shows R [R.tab.units] (fun idx t x => x = R.tab.unitVals i t (idx.headD 0)) A s e := by
  have h := holds_of_write hF
  exact unitsValues_at h hd label i (List.getElem?_eq_some_iff.mp hl).1 (resolve_exact h hn i label hl) s e hav

/-- A shortened name stands for the only label that ends with it. -/
theorem c75_short_name (fill : Option K) (R : Recorded K) (hd : Dated R) (hn : R.tab.unitLabels.Nodup) (F : File K)
    (hF : write fill R = .ok F) (i : ℕ) (name label short : String) (hl : R.tab.unitLabels[i]? = some label)
    (hs : label = name ++ short) (honly : ∀ l ∈ R.tab.unitLabels, (∃ p, l = p ++ short) → l = label) (s e : Option ℤ)
    (hav : Available R s e) : ∃ A, unitsValues F short s e = .ok A ∧
      Shows R [R.tab.units] (fun idx t x => x = R.tab.unitVals i t (idx.headD 0)) A s e := by
  have h := holds_of_write hF
  have hm := List.mem_of_getElem? hl
  refine unitsValues_at h hd short i (List.getElem?_eq_some_iff.mp hl).1 ?_ s e hav
  by_cases hin : short ∈ R.tab.unitLabels
  · have := honly short hin ⟨"", by simp⟩
    rw [this]
    exact resolve_exact h hn i label hl
  · have hfil : (R.tab.unitLabels.filter fun l => endsWith l short) = [label] := by
      have : (R.tab.unitLabels.filter fun l => endsWith l short) = R.tab.unitLabels.filter fun l => l == label := by
        refine List.filter_congr fun l hl' => ?_
        rw [Bool.eq_iff_iff, endsWith_iff, beq_iff_eq]
        exact ⟨fun hp => honly l hl' hp, fun hp => ⟨name, by rw [hp, hs]⟩⟩
      rw [this, List.filter_beq, List.count_eq_one_of_mem hn hm]
      rfl
    simp only [resolve, distLabels_eq, h.dist]
    rw [if_neg hin, hfil]
    simp only
    rw [idxOf_of_getElem? hn hl]

/-- A name that is no label is refused unless exactly one label ends with it. -/
theorem c75_refused (fill : Option K) (R : Recorded K) (F : File K) (hF : write fill R = .ok F) (short : String)
    (hin : short ∉ R.tab.unitLabels) (s e : Option ℤ) :
    ((∀ l ∈ R.tab.unitLabels, ¬ ∃ p, l = p ++ short) → unitsValues F short s e = .error .notFound) ∧
    (∀ (i j : ℕ) (a b : String), R.tab.unitLabels[i]? = some (a ++ short) → R.tab.unitLabels[j]? = some (b ++ short) → i ≠ j →
      unitsValues F short s e = .error .ambiguous) := by
  have h := holds_of_write hF
  constructor
  · intro hno
    have : (R.tab.unitLabels.filter fun l => endsWith l short) = [] := by
      rw [List.filter_eq_nil_iff]
      intro l hl hc
      exact hno l hl ((endsWith_iff _ _).mp hc)
    simp only [unitsValues, resolve, distLabels_eq, h.dist]
    rw [if_neg hin, this]
    rfl
  · intro i j a b hi hj hij
    have two : ∀ i j : ℕ, i < j → ∀ a b, R.tab.unitLabels[i]? = some (a ++ short) → R.tab.unitLabels[j]? = some (b ++ short) →
        ∃ x y r, (R.tab.unitLabels.filter fun l => endsWith l short) = x :: y :: r := by
      intro i j hij a b hi hj
      have e1 : endsWith (a ++ short) short = true := (endsWith_iff _ _).mpr ⟨a, rfl⟩
      have e2 : endsWith (b ++ short) short = true := (endsWith_iff _ _).mpr ⟨b, rfl⟩
      have hlen : 2 ≤ (R.tab.unitLabels.filter fun l => endsWith l short).length := by
        have hsub : [a ++ short, b ++ short].Sublist R.tab.unitLabels := by
          obtain ⟨hi', hi2⟩ := List.getElem?_eq_some_iff.mp hi
          obtain ⟨hj', hj2⟩ := List.getElem?_eq_some_iff.mp hj
          rw [← hi2, ← hj2]
          have h1 : [R.tab.unitLabels[i]].Sublist (R.tab.unitLabels.take j) :=
            List.singleton_sublist.mpr (List.mem_iff_getElem.mpr ⟨i, by simp; omega, by simp⟩)
          have h2 : [R.tab.unitLabels[j]].Sublist (R.tab.unitLabels.drop j) :=
            List.singleton_sublist.mpr (List.mem_iff_getElem.mpr ⟨0, by simp; omega, by simp⟩)
          have := h1.append h2
          rwa [List.take_append_drop] at this
        have := (hsub.filter fun l => endsWith l short).length_le
        simpa [List.filter_cons, e1, e2] using this
      rcases hf : R.tab.unitLabels.filter fun l => endsWith l short with _ | ⟨x, _ | ⟨y, r⟩⟩
      · rw [hf] at hlen; simp at hlen
      · rw [hf] at hlen; simp at hlen
      · exact ⟨x, y, r, rfl⟩
    obtain ⟨x, y, r, hf⟩ : ∃ x y r, (R.tab.unitLabels.filter fun l => endsWith l short) = x :: y :: r := by
      rcases Nat.lt_or_gt_of_ne hij with hh | hh
      · exact two i j hh a b hi hj
      · exact two j i hh b a hj hi
    simp only [unitsValues, resolve, distLabels_eq, h.dist]
    rw [if_neg hin, hf]
    rfl

/-- The dates of a period are those of the rows shown for it. -/
theorem c75_dates (fill : Option K) (R : Recorded K) (F : File K) (hF : write fill R = .ok F) (s e : ℤ) :
    timeArray F s e = (rowsIn R s e).map R.date := by
  rw [timeArray, (holds_of_write hF).times, rowsIn, List.filter_map]
  rfl

/-- A date that was not simulated is refused. -/
theorem c75_other_date (fill : Option K) (R : Recorded K) (F : File K) (hF : write fill R = .ok F) (s : ℤ)
    (hs : ∀ t < R.tab.rows, R.date t ≠ s) (label : String) : ∃ err, unitsValues F label (some s) none = .error err := by
  have h := holds_of_write hF
  have hm : s ∉ F.times := by
    rw [h.times, List.mem_map]
    rintro ⟨t, ht, e⟩
    exact hs t (List.mem_range.mp ht) e
  unfold unitsValues
  rcases resolve F label with err | i
  · exact ⟨err, rfl⟩
  · rcases hsh : sheet F.unitVals i with err | a
    · exact ⟨err, by simp only [Except.bind, hsh]⟩
    · refine ⟨.key, ?_⟩
      simp only [Except.bind, hsh, selectTime]
      rw [if_neg hm]

theorem coverIndex_at {R : Recorded K} {F : File K} (h : Holds R F) (hn : R.tab.fracLabels.Nodup) (j : ℕ) (c : String)
    (hc : R.tab.fracLabels[j]? = some c) : coverIndex F c = .ok j := by
  have hne : R.tab.fracLabels ≠ [] := by rintro e; rw [e] at hc; simp at hc
  unfold coverIndex
  rw [(h.covers hne).1]
  rcases hl : R.tab.fracLabels with _ | ⟨a, _ | ⟨b, r⟩⟩
  · exact absurd hl hne
  · rw [hl] at hc
    rcases j with _ | j
    · simp only [List.getElem?_cons_zero, Option.some.injEq] at hc
      subst hc
      simp only [attr, strIndex]
      rw [List.range_succ_eq_map, List.find?_cons_of_pos (by simp)]
    · simp at hc
  · simp only [attr]
    rw [← hl, if_pos (List.mem_of_getElem? hc), idxOf_of_getElem? hn hc]

theorem areas_getD {R : Recorded K} {F : File K} (h : Holds R F) (u : ℕ) (hu : u < R.tab.units) :
    F.areas.getD u 0 = R.tab.areas u := by
  rw [h.areas, List.getD_eq_getElem?_getD]
  simp [hu]

theorem coverAreas_at {R : Recorded K} {F : File K} (h : Holds R F) (hd : Dated R) (hn : R.tab.fracLabels.Nodup) (j : ℕ)
    (c : String) (hc : R.tab.fracLabels[j]? = some c) (s e : Option ℤ) (hav : Available R s e) :
    ∃ A, coverAreas F c s e = .ok A ∧
      Shows R [R.tab.units] (fun idx t x => x = coverArea R j t (idx.headD 0)) A s e := by
  have hne : R.tab.fracLabels ≠ [] := by rintro e; rw [e] at hc; simp at hc
  obtain ⟨-, v, hv, v0, v1, v2, vv⟩ := h.covers hne
  have hj := (List.getElem?_eq_some_iff.mp hc).1
  obtain ⟨f, hf, sf⟩ := sheet_shows R v j (by rw [v0]; exact hj) v1 v2 (fun u t => R.tab.fracs j t u) (vv j hj)
  obtain ⟨B, hB, sB⟩ := select_shows R F h.times hd [R.tab.units] (fun idx t x => x = coverArea R j t (idx.headD 0))
    ⟨f.shape, fun idx => (f.val idx).map fun x => F.areas.getD (idx.headD 0) 0 * x⟩ (by
      refine ⟨sf.1, fun idx hidx t ht => ?_⟩
      have := sf.2 idx hidx t ht
      obtain ⟨u, hu, rfl⟩ := Results.forall₂_one hidx
      simp only [List.cons_append, List.nil_append, List.headD_cons] at this ⊢
      rw [this, areas_getD h u hu]
      rfl) s e hav
  refine ⟨B, ?_, sB⟩
  rw [coverAreas, coverIndex_at h hn j c hc]
  simp only [Except.bind, hv, hf]
  exact hB

/-- The area of a land cover is the recorded fraction of the area of the unit. -/
theorem c75_cover_areas (fill : Option K) (R : Recorded K) (hd : Dated R) (hn : R.tab.fracLabels.Nodup) (F : File K)
    (hF : write fill R = .ok F) (j : ℕ) (c : String) (hc : R.tab.fracLabels[j]? = some c) (s e : Option ℤ)
    (hav : Available R s e) : ∃ A, coverAreas F c s e = .ok A ∧
      Shows R [R.tab.units] (fun idx t x => x = coverArea R j t (idx.headD 0)) A s e :=
  coverAreas_at (holds_of_write hF) hd hn j c hc s e hav

theorem coverSwe_at {R : Recorded K} {F : File K} (h : Holds R F) (hd : Dated R) (hn : ClearNames R)
    (snow : ℕ → ℕ → ℕ → Option K) (hs : IsSnow R snow) (j : ℕ) (c : String) (hc : R.tab.fracLabels[j]? = some c)
    (s e : Option ℤ) (hav : Available R s e) : ∃ V A, coverSwe F s e c = .ok (V, A) ∧
      Shows R [R.tab.units] (fun idx t x => x = snow j t (idx.headD 0)) V s e ∧
      Shows R [R.tab.units] (fun idx t x => x = coverArea R j t (idx.headD 0)) A s e := by
  obtain ⟨A, hA, sA⟩ := coverAreas_at h hd hn.covers j c hc s e hav
  by_cases hin : snowLabel c ∈ R.tab.unitLabels
  · obtain ⟨i, hi, hil⟩ := List.mem_iff_getElem.mp hin
    have hil' : R.tab.unitLabels[i]? = some (snowLabel c) := by rw [List.getElem?_eq_getElem hi, hil]
    have hr := resolve_exact h hn.labels i _ hil'
    obtain ⟨V, hV, sV⟩ := unitsValues_at h hd (snowLabel c) i hi hr s e hav
    refine ⟨V, A, ?_, ?_, sA⟩
    · rw [coverSwe, hA]
      simp only [Except.bind]
      rw [show c ++ "_snowpack:snow_content" = snowLabel c from rfl, hr, hV]
      rfl
    · have e1 : (fun (idx : List ℕ) (t : ℕ) (x : Option K) => x = snow j t (idx.headD 0)) =
          fun idx t x => x = R.tab.unitVals i t (idx.headD 0) := by
        funext idx t x; rw [hs.recorded j c i hc hil']
      rw [e1]; exact sV
  · have hr : resolve F (snowLabel c) = .error .notFound := by
      have : (R.tab.unitLabels.filter fun l => endsWith l (snowLabel c)) = [] := by
        rw [List.filter_eq_nil_iff]
        intro l hl hc'
        exact hn.stray c (List.mem_of_getElem? hc) hin l hl ((endsWith_iff _ _).mp hc')
      simp only [resolve, distLabels_eq, h.dist]
      rw [if_neg hin, this]
    refine ⟨⟨A.shape, fun _ => some 0⟩, A, ?_, ?_, sA⟩
    · rw [coverSwe, hA]
      simp only [Except.bind]
      rw [show c ++ "_snowpack:snow_content" = snowLabel c from rfl, hr]
    · refine shows_map R [R.tab.units] [R.tab.units] _ _ _ A A ⟨A.shape, fun _ => some 0⟩ (fun sfx h1 _ => h1) ?_ s e sA sA
      intro idx _ k t _ _
      exact (hs.bare j c hc hin t _).symm

theorem stack_shows (R : Recorded K) (f : ℕ → List ℕ → ℕ → Option K) (pre : List ℕ) (s e : Option ℤ) (l : List (Arr K))
    (hne : l ≠ []) (hl : ∀ (j : ℕ) (A : Arr K), l[j]? = some A → Shows R pre (fun idx t x => x = f j idx t) A s e) :
    ∃ B, stack l = .ok B ∧ Shows R (l.length :: pre) (fun idx t x => x = f (idx.headD 0) idx.tail t) B s e := by
  obtain ⟨a, r, rfl⟩ := List.exists_cons_of_ne_nil hne
  have shape : ∀ (j : ℕ) (A : Arr K), (a :: r)[j]? = some A → A.shape = a.shape := by
    intro j A hj
    have h0 := hl 0 a rfl
    have h1 := hl j A hj
    rcases s with _ | s
    · exact h1.1.trans h0.1.symm
    · rcases e with _ | e
      · exact h1.1.trans h0.1.symm
      · exact h1.1.trans h0.1.symm
  refine ⟨_, by
    rw [stack, if_pos]
    rw [List.all_eq_true]
    intro b hb
    obtain ⟨j, hj, rfl⟩ := List.mem_iff_getElem.mp hb
    rw [shape j _ (List.getElem?_eq_getElem hj)]
    exact beq_self_eq_true _, ?_⟩
  have hz := hl 0 a rfl
  have key : ∀ idx, List.Forall₂ (· < ·) idx ((a :: r).length :: pre) → ∃ k rest, idx = k :: rest ∧
      List.Forall₂ (· < ·) rest pre ∧ ∃ A, (a :: r)[k]? = some A := by
    intro idx hidx
    cases hidx with
    | @cons k _ rest _ hk hr => exact ⟨k, rest, rfl, hr, _, List.getElem?_eq_getElem hk⟩
  rcases s with _ | s
  · refine ⟨by simp only [hz.1, List.cons_append], fun idx hidx t ht => ?_⟩
    obtain ⟨k, rest, rfl, hr, A, hA⟩ := key idx hidx
    simp only [List.cons_append, hA, Option.bind_some, List.headD_cons, List.tail_cons]
    exact (hl k A hA).2 rest hr t ht
  rcases e with _ | e
  · refine ⟨by simp only [hz.1], fun idx hidx t ht hd => ?_⟩
    obtain ⟨k, rest, rfl, hr, A, hA⟩ := key idx hidx
    simp only [hA, Option.bind_some, List.headD_cons, List.tail_cons]
    exact (hl k A hA).2 rest hr t ht hd
  · refine ⟨by simp only [hz.1, List.cons_append], fun idx hidx i t hi => ?_⟩
    obtain ⟨k, rest, rfl, hr, A, hA⟩ := key idx hidx
    simp only [List.cons_append, hA, Option.bind_some, List.headD_cons, List.tail_cons]
    exact (hl k A hA).2 rest hr i t hi

theorem mapM_ok {α β : Type} (f : α → Except Results.Err β) :
    ∀ (l : List α), (∀ a ∈ l, ∃ b, f a = .ok b) →
      ∃ m, l.mapM f = .ok m ∧ m.length = l.length ∧
        ∀ (j : ℕ) (b : β), m[j]? = some b → ∃ a, l[j]? = some a ∧ f a = .ok b
  | [], _ => ⟨[], rfl, rfl, by simp⟩
  | a :: r, h => by
    obtain ⟨b, hb⟩ := h a List.mem_cons_self
    obtain ⟨m, hm, hlen, hj⟩ := mapM_ok f r fun x hx => h x (List.mem_cons_of_mem _ hx)
    refine ⟨b :: m, ?_, by simp [hlen], ?_⟩
    · rw [List.mapM_cons, hb, hm]; rfl
    · intro j x hx
      rcases j with _ | j
      · simp only [List.getElem?_cons_zero, Option.some.injEq] at hx
        subst hx
        exact ⟨a, rfl, hb⟩
      · exact hj j x hx

theorem stackSwe_at {R : Recorded K} {F : File K} (h : Holds R F) (hd : Dated R) (hn : ClearNames R)
    (htwo : 2 ≤ R.tab.fracLabels.length) (snow : ℕ → ℕ → ℕ → Option K) (hs : IsSnow R snow) (s e : Option ℤ)
    (hav : Available R s e) : ∃ V A, stackSwe F s e = .ok (V, A) ∧
      Shows R [R.tab.fracLabels.length, R.tab.units] (fun idx t x => x = snow (idx.headD 0) t (idx.tail.headD 0)) V s e ∧
      Shows R [R.tab.fracLabels.length, R.tab.units] (fun idx t x => x = coverArea R (idx.headD 0) t (idx.tail.headD 0)) A
        s e := by
  have hne : R.tab.fracLabels ≠ [] := by rintro e; rw [e] at htwo; simp at htwo
  have hloop : coverLoop F = .ok R.tab.fracLabels := by
    unfold coverLoop
    rw [(h.covers hne).1]
    rcases hl : R.tab.fracLabels with _ | ⟨a, _ | ⟨b, r⟩⟩
    · exact absurd hl hne
    · rw [hl] at htwo; simp at htwo
    · rfl
  obtain ⟨m, hm, hlen, hmj⟩ := mapM_ok (coverSwe F s e) R.tab.fracLabels (by
    intro c hc
    obtain ⟨j, hj, hjc⟩ := List.mem_iff_getElem.mp hc
    obtain ⟨V, A, hVA, -⟩ := coverSwe_at h hd hn snow hs j c (by rw [List.getElem?_eq_getElem hj, hjc]) s e hav
    exact ⟨(V, A), hVA⟩)
  have cell : ∀ (j : ℕ) (p : Arr K × Arr K), m[j]? = some p →
      Shows R [R.tab.units] (fun idx t x => x = snow j t (idx.headD 0)) p.1 s e ∧
      Shows R [R.tab.units] (fun idx t x => x = coverArea R j t (idx.headD 0)) p.2 s e := by
    intro j p hj
    obtain ⟨c, hc, hp⟩ := hmj j p hj
    obtain ⟨V, A, hVA, hV, hA⟩ := coverSwe_at h hd hn snow hs j c hc s e hav
    rw [hp] at hVA
    cases hVA
    exact ⟨hV, hA⟩
  have mne : m ≠ [] := by rintro rfl; exact hne (List.length_eq_zero_iff.mp hlen.symm)
  obtain ⟨V, hV, sV⟩ := stack_shows R (fun j idx t => snow j t (idx.headD 0)) [R.tab.units] s e (m.map Prod.fst)
    (by simpa using mne) (by
      intro j A hj
      rw [List.getElem?_map, Option.map_eq_some_iff] at hj
      obtain ⟨p, hp, rfl⟩ := hj
      exact (cell j p hp).1)
  obtain ⟨A, hA, sA⟩ := stack_shows R (fun j idx t => coverArea R j t (idx.headD 0)) [R.tab.units] s e (m.map Prod.snd)
    (by simpa using mne) (by
      intro j A hj
      rw [List.getElem?_map, Option.map_eq_some_iff] at hj
      obtain ⟨p, hp, rfl⟩ := hj
      exact (cell j p hp).2)
  rw [List.length_map, hlen] at sV sA
  refine ⟨V, A, ?_, sV, sA⟩
  rw [stackSwe, hloop]
  simp only [Except.bind, hm, hV, hA]
  rfl

variable [DecidableEq K]

/-- The snow water equivalent of a unit is the mean over its land covers, weighted by their areas; a cover without snowpack
counts with no snow, a cover the unit does not have does not count. -/
theorem c75_total_swe (fill : Option K) (R : Recorded K) (hd : Dated R) (hn : ClearNames R)
    (htwo : 2 ≤ R.tab.fracLabels.length) (snow : ℕ → ℕ → ℕ → Option K) (hs : IsSnow R snow) (F : File K)
    (hF : write fill R = .ok F) (s e : Option ℤ) (hav : Available R s e) : ∃ B, totalSwe F s e = .ok B ∧
      Shows R [R.tab.units] (fun idx t x => IsMean (range R.tab.fracLabels.length)
        (fun j => coverArea R j t (idx.headD 0)) (fun j => snow j t (idx.headD 0)) x) B s e := by
  obtain ⟨V, A, hVA, sV, sA⟩ := stackSwe_at (holds_of_write hF) hd hn htwo snow hs s e hav
  obtain ⟨B, hB, sB⟩ := nanMean_shows R R.tab.fracLabels.length [R.tab.units] _ _ V A s e sV sA
  refine ⟨B, ?_, sB⟩
  rw [totalSwe, hVA]
  exact hB

/-- The mean snow water equivalent is the mean over all land covers of all units, weighted by their areas. -/
theorem c75_mean_swe (fill : Option K) (R : Recorded K) (hd : Dated R) (hn : ClearNames R)
    (htwo : 2 ≤ R.tab.fracLabels.length) (snow : ℕ → ℕ → ℕ → Option K) (hs : IsSnow R snow) (F : File K)
    (hF : write fill R = .ok F) (s e : Option ℤ) (hav : Available R s e) : ∃ B, meanSwe F s e = .ok B ∧
      Shows R [] (fun _ t x => IsMean (range R.tab.fracLabels.length ×ˢ range R.tab.units)
        (fun p => coverArea R p.1 t p.2) (fun p => snow p.1 t p.2) x) B s e := by
  obtain ⟨V, A, hVA, sV, sA⟩ := stackSwe_at (holds_of_write hF) hd hn htwo snow hs s e hav
  have mV := merge_shows R _ _ [] _ V s e sV
  have mA := merge_shows R _ _ [] _ A s e sA
  obtain ⟨B, hB, sB⟩ := nanMean_shows R _ [] _ _ (mergeAxes V) (mergeAxes A) s e mV mA
  refine ⟨B, ?_, ?_⟩
  · rw [meanSwe, hVA]
    exact hB
  · refine shows_map R [] [] _ _ _ B B B (fun sfx h1 _ => h1) ?_ s e sB sB
    intro idx hidx k t ht hh
    have := (hh idx hidx).1
    cases hidx
    simp only [List.headD_cons, List.tail_cons] at this
    refine isMean_reindex R.tab.fracLabels.length R.tab.units (fun j u => coverArea R j t u) (fun j u => snow j t u) _ this

theorem covered_area (R : Recorded K) (snow : ℕ → ℕ → ℕ → Option K) (t u : ℕ) (h : WholeCover R snow t u) :
    (∑ j ∈ range R.tab.fracLabels.length, if (coverArea R j t u).isSome = true ∧ (snow j t u).isSome = true then
      (coverArea R j t u).getD 0 else 0) = R.tab.areas u ∧
    (∑ j ∈ range R.tab.fracLabels.length, if (coverArea R j t u).isSome = true ∧ (snow j t u).isSome = true then
      (coverArea R j t u).getD 0 * (snow j t u).getD 0 else 0) =
      R.tab.areas u * ∑ j ∈ range R.tab.fracLabels.length, (R.tab.fracs j t u).getD 0 * (snow j t u).getD 0 := by
  constructor
  · have : ∀ j ∈ range R.tab.fracLabels.length, (if (coverArea R j t u).isSome = true ∧ (snow j t u).isSome = true then
        (coverArea R j t u).getD 0 else 0) = R.tab.areas u * (R.tab.fracs j t u).getD 0 := by
      intro j hj
      have hk := h.known j (mem_range.mp hj)
      unfold coverArea
      rcases hf : R.tab.fracs j t u with _ | x
      · simp
      · rw [hf] at hk
        simp [hk rfl]
    rw [Finset.sum_congr rfl this, ← Finset.mul_sum, h.whole, mul_one]
  · rw [Finset.mul_sum]
    refine Finset.sum_congr rfl fun j hj => ?_
    have hk := h.known j (mem_range.mp hj)
    unfold coverArea
    rcases hf : R.tab.fracs j t u with _ | x
    · simp
    · rw [hf] at hk
      simp [hk rfl, mul_assoc]

/-- In a unit entirely covered, the snow water equivalent is the sum of the depths weighted by the fractions. -/
theorem c75_unit_depth (R : Recorded K) (snow : ℕ → ℕ → ℕ → Option K) (t u : ℕ) (h : WholeCover R snow t u)
    (ha : R.tab.areas u ≠ 0) (x : Option K)
    (hx : IsMean (range R.tab.fracLabels.length) (fun j => coverArea R j t u) (fun j => snow j t u) x) :
    x = some (∑ j ∈ range R.tab.fracLabels.length, (R.tab.fracs j t u).getD 0 * (snow j t u).getD 0) := by
  obtain ⟨h1, h2⟩ := covered_area R snow t u h
  unfold IsMean at hx
  simp only [Finset.sum_filter] at hx
  rw [h1, h2] at hx
  obtain ⟨y, rfl, hy⟩ := hx.2 ha
  rw [mul_comm] at hy
  rw [mul_left_cancel₀ ha hy]

/-- In a catchment entirely covered, the mean snow water equivalent times the area is the snow of all units. -/
theorem c75_volume (R : Recorded K) (snow : ℕ → ℕ → ℕ → Option K) (t : ℕ) (h : ∀ u < R.tab.units, WholeCover R snow t u)
    (ha : ∑ u ∈ range R.tab.units, R.tab.areas u ≠ 0) (x : Option K)
    (hx : IsMean (range R.tab.fracLabels.length ×ˢ range R.tab.units) (fun p => coverArea R p.1 t p.2)
      (fun p => snow p.1 t p.2) x) :
    ∃ y, x = some y ∧ y * (∑ u ∈ range R.tab.units, R.tab.areas u) = ∑ u ∈ range R.tab.units, R.tab.areas u *
      ∑ j ∈ range R.tab.fracLabels.length, (R.tab.fracs j t u).getD 0 * (snow j t u).getD 0 := by
  unfold IsMean at hx
  simp only [Finset.sum_filter, Finset.sum_product_right] at hx
  rw [Finset.sum_congr rfl fun u hu => (covered_area R snow t u (h u (mem_range.mp hu))).1,
    Finset.sum_congr rfl fun u hu => (covered_area R snow t u (h u (mem_range.mp hu))).2] at hx
  exact hx.2 ha

theorem snowLabel_inj {a b : String} (h : snowLabel a = snowLabel b) : a = b := by
  have := congrArg String.toList h
  simp only [snowLabel, String.toList_append] at this
  exact String.toList_injective (List.append_cancel_right this)

theorem fractionIndex_snow (covers : List String) (hn : CoverNames covers) (j : ℕ) (c : String) (hc : covers[j]? = some c) :
    fractionIndex covers (snowLabel c) = some j := by
  have hm := List.mem_of_getElem? hc
  have hcol : ':' ∈ (snowLabel c).toList := by simp [snowLabel, String.toList_append]
  have hown : Owns c (snowLabel c) := by
    refine Or.inr (Or.inl ?_)
    rw [component, snowLabel, String.toList_append, List.takeWhile_append_of_pos (by
      intro a ha; simp only [ne_eq, decide_eq_true_eq]; rintro rfl; exact hn.colon c hm ha)]
    exact congrArg (c.toList ++ ·) (by decide)
  rcases hf : fractionIndex covers (snowLabel c) with _ | j'
  · unfold fractionIndex at hf
    rw [List.findIdx?_eq_none_iff] at hf
    have := (owns_iff c _ (hn.colon c hm) hcol).mpr hown
    rw [hf c hm] at this; cases this
  · unfold fractionIndex at hf
    rw [List.findIdx?_eq_some_iff_getElem] at hf
    obtain ⟨hj, ho, -⟩ := hf
    have ho' := (owns_iff _ _ (hn.colon _ (List.getElem_mem hj)) hcol).mp ho
    have heq := owns_unique covers hn _ _ _ (List.getElem_mem hj) hm ho' hown
    obtain ⟨hj2, hc2⟩ := List.getElem?_eq_some_iff.mp hc
    rw [← hc2, hn.nodup.getElem_inj_iff] at heq
    rw [heq]

/-- The mean snow water equivalent read at the last date is the final snow storage of the water balance of the model. -/
theorem c75_agrees_with_balance (R : Recorded K) (hc : CoverNames R.tab.fracLabels) (hl : R.tab.unitLabels.Nodup)
    (hon : OnlyCoverSnow R) (snow : ℕ → ℕ → ℕ → Option K) (hs : IsSnow R snow)
    (h : ∀ u < R.tab.units, WholeCover R snow (R.tab.rows - 1) u) (ha : ∑ u ∈ range R.tab.units, R.tab.areas u ≠ 0)
    (x : Option K) (hx : IsMean (range R.tab.fracLabels.length ×ˢ range R.tab.units)
      (fun p => coverArea R p.1 (R.tab.rows - 1) p.2) (fun p => snow p.1 (R.tab.rows - 1) p.2) x) :
    x = some (R.tab.unitsFinal ":snow_content") := by
  obtain ⟨y, rfl, hy⟩ := c75_volume R snow _ h ha x hx
  congr 1
  rw [← eq_div_iff ha] at hy
  rw [hy, LogTable.unitsFinal]
  have hrow : ∀ f : ℕ → ℕ → K, ((indicesFor R.tab.unitLabels ":snow_content").map fun i => R.tab.rowMean (f i)).sum =
      (∑ u ∈ range R.tab.units, R.tab.areas u * ((indicesFor R.tab.unitLabels ":snow_content").map fun i => f i u).sum) /
        ∑ u ∈ range R.tab.units, R.tab.areas u := by
    intro f
    induction indicesFor R.tab.unitLabels ":snow_content" with
    | nil => simp
    | cons i r ih =>
      rw [List.map_cons, List.sum_cons, ih]
      simp only [List.map_cons, List.sum_cons, LogTable.rowMean]
      rw [← add_div, ← Finset.sum_add_distrib]
      congr 1
      exact Finset.sum_congr rfl fun u _ => by ring
  rw [hrow fun i u => nanToZero (R.tab.unitVals i (R.tab.rows - 1) u) *
    R.tab.fractionFor (R.tab.unitLabels.getD i "") (R.tab.rows - 1) u]
  congr 1
  refine Finset.sum_congr rfl fun u _ => ?_
  congr 1
  -- covers with a snowpack ↔ labels of snow contents
  have hsum : ∀ g : ℕ → K, ((indicesFor R.tab.unitLabels ":snow_content").map g).sum =
      ∑ i ∈ (range R.tab.unitLabels.length).filter fun i => containsStr (R.tab.unitLabels.getD i "") ":snow_content" = true,
        g i := by
    intro g
    rw [indicesFor, Finset.sum_filter, ← list_range_sum]
    induction List.range R.tab.unitLabels.length with
    | nil => rfl
    | cons i r ih =>
      rw [List.filter_cons]
      by_cases hi : containsStr (R.tab.unitLabels.getD i "") ":snow_content" = true
      · simp only [hi, if_true, List.map_cons, List.sum_cons]; rw [← ih]
      · rw [if_neg hi, List.map_cons, List.sum_cons, if_neg hi, zero_add, ih]
  rw [hsum]
  have hsplit : ∑ j ∈ range R.tab.fracLabels.length, (R.tab.fracs j (R.tab.rows - 1) u).getD 0 *
      (snow j (R.tab.rows - 1) u).getD 0 = ∑ j ∈ (range R.tab.fracLabels.length).filter fun j =>
        snowLabel (R.tab.fracLabels.getD j "") ∈ R.tab.unitLabels, (R.tab.fracs j (R.tab.rows - 1) u).getD 0 *
          (snow j (R.tab.rows - 1) u).getD 0 := by
    rw [Finset.sum_filter]
    refine Finset.sum_congr rfl fun j hj => ?_
    have hj' := mem_range.mp hj
    split
    · rfl
    · next hno =>
      have hg : R.tab.fracLabels[j]? = some (R.tab.fracLabels.getD j "") := by
        rw [List.getD_eq_getElem?_getD, List.getElem?_eq_getElem hj']; rfl
      rw [hs.bare j _ hg hno]
      simp
  rw [hsplit]
  have cov : ∀ j, j < R.tab.fracLabels.length → R.tab.fracLabels[j]? = some (R.tab.fracLabels.getD j "") := by
    intro j hj; rw [List.getD_eq_getElem?_getD, List.getElem?_eq_getElem hj]; rfl
  have lab : ∀ i, i < R.tab.unitLabels.length → R.tab.unitLabels[i]? = some (R.tab.unitLabels.getD i "") := by
    intro i hi; rw [List.getD_eq_getElem?_getD, List.getElem?_eq_getElem hi]; rfl
  have labIdx : ∀ l, l ∈ R.tab.unitLabels → R.tab.unitLabels.getD (R.tab.unitLabels.idxOf l) "" = l := by
    intro l hl'
    have hlt := List.idxOf_lt_length_of_mem hl'
    rw [List.getD_eq_getElem?_getD, List.getElem?_eq_getElem hlt, List.getElem_idxOf hlt]; rfl
  refine Finset.sum_bij (fun j _ => R.tab.unitLabels.idxOf (snowLabel (R.tab.fracLabels.getD j ""))) ?_ ?_ ?_ ?_
  · intro j hj
    obtain ⟨-, hm⟩ := mem_filter.mp hj
    refine mem_filter.mpr ⟨mem_range.mpr (List.idxOf_lt_length_of_mem hm), ?_⟩
    rw [labIdx _ hm, containsStr_iff]
    refine ⟨(R.tab.fracLabels.getD j "").toList ++ "_snowpack".toList, [], ?_⟩
    rw [snowLabel, String.toList_append, List.append_nil, List.append_assoc]
    rfl
  · intro j hj j' hj' he
    obtain ⟨hr, hm⟩ := mem_filter.mp hj
    obtain ⟨hr', hm'⟩ := mem_filter.mp hj'
    have e1 : snowLabel (R.tab.fracLabels.getD j "") = snowLabel (R.tab.fracLabels.getD j' "") := by
      rw [← labIdx _ hm, ← labIdx _ hm', he]
    have e2 := snowLabel_inj e1
    have c1 := cov j (mem_range.mp hr)
    have c2 := cov j' (mem_range.mp hr')
    rw [← e2] at c2
    rw [← idxOf_of_getElem? hc.nodup c1, ← idxOf_of_getElem? hc.nodup c2]
  · intro i hi
    obtain ⟨hr, hm⟩ := mem_filter.mp hi
    have hi' := lab i (mem_range.mp hr)
    obtain ⟨c, hcm, hcl⟩ := hon _ (List.mem_of_getElem? hi') hm
    obtain ⟨j, hj, hjc⟩ := List.mem_iff_getElem.mp hcm
    have hg : R.tab.fracLabels.getD j "" = c := by
      rw [List.getD_eq_getElem?_getD, List.getElem?_eq_getElem hj, hjc]; rfl
    refine ⟨j, mem_filter.mpr ⟨mem_range.mpr hj, ?_⟩, ?_⟩
    · rw [hg, ← hcl]; exact List.mem_of_getElem? hi'
    · simp only [hg, ← hcl]
      exact idxOf_of_getElem? hl hi'
  · intro j hj
    obtain ⟨hr, hm⟩ := mem_filter.mp hj
    have cj := cov j (mem_range.mp hr)
    have hi := lab _ (List.idxOf_lt_length_of_mem hm)
    rw [labIdx _ hm] at hi
    rw [labIdx _ hm, LogTable.fractionFor, fractionIndex_snow _ hc j _ cj, hs.recorded j _ _ cj hi]
    simp only [nanToZero]
    ring

end

/-! ## A case and what goes wrong -/

namespace ResultsDemo

/-- Two units over three days; the lake is only in the second one, and has no snowpack. -/
def R : Recorded ℚ where
  tab := {
    rows := 3, units := 2, areas := fun u => if u = 0 then 100 else 300
    basinLabels := ["outlet"], basinInit := fun _ => some 0, basinVals := fun _ t => some t
    unitLabels := ["ground_snowpack:snow_content", "glacier_snowpack:snow_content", "slow_reservoir:water_content"]
    unitInit := fun _ _ => some 0
    unitVals := fun i t u => if i = 1 ∧ u = 1 then none else some (10 * i + 4 * t + u)
    fracLabels := ["ground", "glacier", "lake"]
    fracs := fun j _ u => if u = 0 then (if j = 2 then none else some (1 / 2)) else (if j = 0 then some (3 / 4) else
      if j = 2 then some (1 / 4) else none)
    basinEt := [], unitEt := [] }
  date t := 59000 + t
  ids u := u + 1

/-- The same without a snowpack on the lake, beside a cover named `big_lake`. -/
def stray : Recorded ℚ where
  tab := { R.tab with
    unitLabels := ["big_lake_snowpack:snow_content"], fracLabels := ["lake", "big_lake"]
    unitVals := fun _ _ _ => some 8, fracs := fun _ _ _ => some (1 / 2) }
  date := R.date
  ids := R.ids

/-- A model with one land cover. -/
def single : Recorded ℚ where
  tab := { R.tab with
    unitLabels := ["ground_snowpack:snow_content"], fracLabels := ["ground"]
    unitVals := fun _ _ _ => some 8, fracs := fun _ _ _ => some 1 }
  date := R.date
  ids := R.ids

/-- What a call gives: the shape and the cells of an array. -/
def out (r : Except Results.Err (Arr ℚ)) (idx : List (List ℕ)) : Option (List ℕ × List (Option ℚ)) :=
  match r with
  | .ok a => some (a.shape, idx.map a.val)
  | .error _ => none

/-- A call on the file of a run. -/
def call (R : Recorded ℚ) (f : File ℚ → Except Results.Err (Arr ℚ)) : Except Results.Err (Arr ℚ) := (write none R).bind f

def snow (j t u : ℕ) : Option ℚ := if j = 2 then some 0 else R.tab.unitVals j t u

theorem clear : ClearNames R where
  labels := by decide
  covers := by decide
  stray := by
    intro c hc hin l hl hp
    have hc' : c = "lake" := by
      simp only [R, List.mem_cons, List.not_mem_nil, or_false] at hc
      rcases hc with rfl | rfl | rfl
      · exact absurd (by decide) hin
      · exact absurd (by decide) hin
      · rfl
    subst hc'
    rw [← endsWith_iff] at hp
    revert l
    decide

theorem isSnow : IsSnow R snow where
  recorded := by
    intro j c i hc hi t u
    have hj : j < 3 := (List.getElem?_eq_some_iff.mp hc).1
    have hi' : i < 3 := (List.getElem?_eq_some_iff.mp hi).1
    have key : ∀ j < 3, ∀ i < 3, ∀ c ∈ R.tab.fracLabels, R.tab.fracLabels[j]? = some c →
        R.tab.unitLabels[i]? = some (snowLabel c) → i = j ∧ j ≠ 2 := by decide
    obtain ⟨rfl, h2⟩ := key j hj i hi' c (List.mem_of_getElem? hc) hc hi
    simp [snow, h2]
  bare := by
    intro j c hc hin t u
    have hj : j < 3 := (List.getElem?_eq_some_iff.mp hc).1
    have key : ∀ j < 3, ∀ c ∈ R.tab.fracLabels, R.tab.fracLabels[j]? = some c →
        snowLabel c ∉ R.tab.unitLabels → j = 2 := by decide
    rw [key j hj c (List.mem_of_getElem? hc) hc hin]
    rfl

theorem dated : Dated R := by
  intro a b h _
  simp only [R]
  omega

theorem covered (t u : ℕ) (hu : u < 2) : WholeCover R snow t u := by
  have : u = 0 ∨ u = 1 := by omega
  rcases this with rfl | rfl
  · refine ⟨?_, ?_⟩
    · have : ∑ j ∈ range 3, ((R.tab.fracs j 0 0).getD 0) = 1 := by decide +kernel
      exact this
    · intro j hj
      have : ∀ j < 3, (R.tab.fracs j t 0).isSome → (snow j t 0).isSome := by
        intro j hj
        have : j = 0 ∨ j = 1 ∨ j = 2 := by omega
        rcases this with rfl | rfl | rfl <;> simp [R, snow]
      exact this j hj
  · refine ⟨?_, ?_⟩
    · have : ∑ j ∈ range 3, ((R.tab.fracs j 0 1).getD 0) = 1 := by decide +kernel
      exact this
    · intro j hj
      have : ∀ j < 3, (R.tab.fracs j t 1).isSome → (snow j t 1).isSome := by
        intro j hj
        have : j = 0 ∨ j = 1 ∨ j = 2 := by omega
        rcases this with rfl | rfl | rfl <;> simp [R, snow]
      exact this j hj

/-- The hypotheses hold for the case, and the calls give what was recorded. -/
theorem reads : ClearNames R ∧ Dated R ∧ IsSnow R snow ∧ (∀ t, ∀ u < 2, WholeCover R snow t u) ∧
    out (call R fun F => unitsValues F "slow_reservoir:water_content" (some 59001) (some 59002)) [[0, 0], [1, 1]] =
      some ([2, 2], [some 24, some 29]) ∧
    out (call R fun F => unitsValues F "reservoir:water_content" (some 59001) none) [[1]] = some ([2], [some 25]) ∧
    out (call R fun F => coverAreas F "lake" none none) [[0, 0], [1, 2]] = some ([2, 3], [none, some 75]) ∧
    out (call R fun F => totalSwe F none none) [[0, 1], [1, 1]] = some ([2, 3], [some 9, some (15 / 4)]) ∧
    out (call R fun F => meanSwe F none none) [[1]] = some ([3], [some (81 / 16)]) ∧
    out (call R fun F => meanSwe F (some 59002) none) [[]] = some ([], [some (R.tab.unitsFinal ":snow_content")]) :=
  ⟨clear, dated, isSnow, fun t u hu => covered t u hu, by decide +kernel, by decide +kernel, by decide +kernel,
    by decide +kernel, by decide +kernel, by decide +kernel⟩

theorem balance_applies : CoverNames R.tab.fracLabels ∧ R.tab.unitLabels.Nodup ∧ OnlyCoverSnow R :=
  ⟨⟨by decide, by decide, by decide⟩, by decide, by
    intro l hl hc
    have key : ∀ l ∈ R.tab.unitLabels, containsStr l ":snow_content" = true →
        ∃ c ∈ R.tab.fracLabels, l = snowLabel c := by decide
    exact key l hl hc⟩

end ResultsDemo

open ResultsDemo in
/-- `get_mean_hydro_units_values`, documented as a series of means over the hydro units, averages over the dates instead: one
value per unit, and an error for a single date. -/
theorem c75_mean_over_wrong_axis :
    out (call R fun F => meanValues F "ground" "ground_snowpack:snow_content" none none) [[0], [1]] =
      some ([2], [some 4, some 5]) ∧
    out (call R fun F => meanValues F "ground" "ground_snowpack:snow_content" (some 59001) none) [] = none := by
  constructor <;> decide +kernel

open ResultsDemo in
/-- A cover without snowpack takes the snow of a cover whose name ends like its own: 8 mm everywhere instead of the 4 mm of the
half with snow. -/
theorem c75_snow_of_another_cover :
    out (call stray fun F => totalSwe F none none) [[0, 0]] = some ([2, 3], [some 8]) ∧
    out (call stray fun F => meanSwe F none none) [[0]] = some ([3], [some 8]) ∧
    "lake_snowpack:snow_content" ∉ stray.tab.unitLabels := by
  refine ⟨?_, ?_, ?_⟩ <;> decide +kernel

open ResultsDemo in
/-- With a single land cover the snow water equivalents cannot be read (the name is taken letter by letter), and any piece of the
name at its start stands for the cover. -/
theorem c75_single_cover :
    out (call single fun F => meanSwe F none none) [] = none ∧ out (call single fun F => totalSwe F none none) [] = none ∧
    out (call single fun F => coverAreas F "gro" none none) [[0, 0]] = some ([2, 3], [some 100]) ∧
    out (call single fun F => unitsValues F "ground_snowpack:snow_content" none none) [[0, 0]] = some ([2, 3], [some 8]) := by
  refine ⟨?_, ?_, ?_, ?_⟩ <;> decide +kernel

end HB
