import Verif.Model.SetupLemmas2

/-!
# Lemmas on setting up a model (C73): the topology check
-/

set_option linter.unusedSectionVars false

namespace HB.Setup

open HB.Names HB.Wire HB.Basin

variable {K : Type} [Field K] [LinearOrder K] [IsStrictOrderedRing K]

/-- A brick of a described structure that is not computed directly is a storage declared so. -/
theorem solved_storage {v : Wire.Variant} {bas : List String} (hg : Good v bas) {i : ℕ} {b : Wire.Brick}
    (hb : (Spec.complete v).unitBricks[i]? = some b) (hd : Asm.isDirect b = false) :
    ∃ (k : ℕ) (it : Item), (Spec.itemsAt .unit v.items)[k]? = some it ∧ it ∈ v.items ∧ it.place = .unit ∧ it.direct = false ∧ b = Spec.storageOf it := by
  have hnd : ¬ Spec.Direct b := fun h => by rw [(Asm.isDirect_iff b).2 h] at hd; cases hd
  cases sort_of hg hb with
  | cover c h1 h2 hc hn hty _ _ _ =>
    refine absurd (.inl ?_) hnd
    rw [hty]
    have := hg.build.types c hc
    simp only [Spec.coverTypes, List.mem_cons, List.not_mem_nil, or_false] at this
    rcases this with h | h | h | h | h <;> rw [h] <;> decide
  | canopy c _ _ _ _ he => subst he; exact absurd (.inl (by change "interception_storage" ∈ _; decide)) hnd
  | snow c _ _ _ _ he => subst he; exact absurd (.inl (by change "snowpack" ∈ _; decide)) hnd
  | storage k it h1 hk hit hpl he =>
    subst he
    refine ⟨k, it, hk, hit, hpl, ?_, rfl⟩
    cases hx : it.direct with
    | false => rfl
    | true => exact absurd (.inr hx) hnd

/-- A described structure passes the topology check. -/
theorem topology_fine {inp : Input K} (hD : Spec.Described inp) {m : Wire.Model K} (hm : build inp = .ok m) : badTopology inp m = false := by
  have hd := described_distinct hD
  rw [Bool.eq_false_iff]
  intro hbad
  obtain ⟨f, hf, hbad⟩ := List.any_eq_true.1 hbad
  rw [Bool.and_eq_true] at hbad
  obtain ⟨hsrc, hdst⟩ := hbad
  rcases c57_only_declared hd hm f hf with ⟨u, un, i, b, p, h1, h2, h3, h4⟩ | ⟨u, un, i, s, h1, h2, h3, h4⟩ | ⟨i, b, p, h1, h2, h3⟩ | ⟨i, s, h1, h2, h3⟩
  · rw [h1] at hsrc
    simp only [h2, Option.bind_some, h3, Option.elim_some, Bool.not_eq_true'] at hsrc
    obtain ⟨v, hg, hs, -⟩ := unit_good hD h2
    have hb := h3
    rw [hs] at hb
    obtain ⟨k, it, hk, hit, hpl, hdir, rfl⟩ := solved_storage hg hb hsrc
    have hfm : f ∈ m.net.outputs (.unitBrick u i) f.proc := List.mem_filter.2 ⟨hf, by simp [h1]⟩
    obtain ⟨q, hq, rfl⟩ := List.mem_map.1 (List.mem_of_getElem? h4)
    by_cases hat : (Spec.procOf q).type ∈ Spec.atmosphereNames
    · obtain ⟨g, hg1, hg2⟩ := c57_atmosphere hd hm h2 h3 h4 hat
      rw [hg1, List.mem_singleton] at hfm
      rw [hfm, hg2.dest] at hdst
      cases hdst
    · have hout := c57_unit_outputs hd hm h2 h3 h4 hat fun o ho => ((hg.plan.written it hit q hq).2 _ (procOf_outs ho).1).2.2
      obtain ⟨o, ho, hW⟩ := Asm.forall₂_mem hout hfm
      have hden := hW.dest
      have hlater := feedsLater_get hg.plan.forward hk hq hat (procOf_outs ho).1
      cases hdest : f.dst with
      | outlet => rw [hdest] at hdst; cases hdst
      | atmosphere => rw [hdest] at hdst; cases hdst
      | comp c =>
        rw [hdest] at hden hdst
        cases hden with
        | brick hne hn =>
          rcases hlater with h | ⟨k', it', -, hk', hkey, hdd⟩
          · exact hne h
          · obtain ⟨rfl, rfl⟩ := named_own hD hg hs (storage_get hk') hkey hn
            simp only [h2, Option.bind_some, hs, storage_get hk', Option.elim_some] at hdst
            have hD' := (Asm.isDirect_iff _).1 hdst
            rcases hD' with h | h
            · have hit' := mem_itemsAt.1 (List.mem_of_getElem? hk')
              rw [show (Spec.storageOf it').type = it'.kind from rfl, (hg.plan.storages it' hit'.1 (by rw [hit'.2]; decide)).1] at h
              revert h
              decide
            · rw [show (Spec.storageOf it').direct = it'.direct from rfl, hdd hdir] at h
              cases h
        | split hne hno hn =>
          cases hn with
          | own => cases hdst
          | basin => cases hdst
  · rw [h1] at hsrc; cases hsrc
  · have hfm : f ∈ m.net.outputs (.basinBrick i) f.proc := List.mem_filter.2 ⟨hf, by simp [h1]⟩
    obtain ⟨g1, g2⟩ := c57_basin_outputs hd hm h2 h3
    by_cases hat : p.type ∈ Spec.atmosphereNames
    · obtain ⟨g, hg1, hg2⟩ := g1 hat
      rw [hg1, List.mem_singleton] at hfm
      rw [hfm, hg2.dest] at hdst
      cases hdst
    · obtain ⟨o, ho, hW⟩ := Asm.forall₂_mem (g2 hat) hfm
      have := (basin_output hD (i := i) (b := b) (o := o) ⟨h2, p, List.mem_of_getElem? h3, hat, ho⟩).1
      have hden := hW.dest
      cases hdest : f.dst with
      | outlet => rw [hdest] at hdst; cases hdst
      | atmosphere => rw [hdest] at hdst; cases hdst
      | comp c =>
        rw [hdest] at hden
        cases hden with
        | brick hne _ _ => exact hne this
        | split hne _ _ _ => exact hne this
  · rw [h1] at hsrc; cases hsrc

end HB.Setup
