import Verif.Props.CustomSpec

/-! # C93: where the messages point, what the generator reads -/

set_option linter.unusedSectionVars false
set_option linter.unusedSimpArgs false

namespace HB.Custom

open Spec.Custom

theorem when_at {c : Bool} {m m' : Msg} (h : m' ∈ when c m) : m' = m := by cases c <;> simp [when] at h; exact h

theorem keys_at {d : List (String × Val)} {valid at_ : List String} {m : Msg} (h : m ∈ checkKeys d valid at_) : m.at_ = at_ := by
  unfold checkKeys at h; rw [List.mem_map] at h; obtain ⟨p, _, rfl⟩ := h; rfl

theorem process_at {p : Val} {at_ : List String} {m : Msg} (h : m ∈ validateProcess p at_) : m.at_ = at_ := by
  unfold validateProcess at h
  split at h
  · simp only [validateProcessDict, List.mem_append] at h
    rcases h with ((((((h | h) | h) | h) | h) | h) | h) | h
    · exact keys_at h
    all_goals (rw [when_at h])
  · simp only [List.mem_singleton] at h; rw [h]

theorem brick_at {b : Val} {at_ : List String} {m : Msg} (h : m ∈ validateBrick b at_) : m.at_ = at_ ∨ ∃ q, m.at_ = at_ ++ ["processes", q] := by
  unfold validateBrick at h
  split at h
  · simp only [validateBrickDict, List.mem_append] at h
    rcases h with ((((h | h) | h) | h) | h) | h
    · exact Or.inl (keys_at h)
    · rw [when_at h]; exact Or.inl rfl
    · rw [when_at h]; exact Or.inl rfl
    · rw [when_at h]; exact Or.inl rfl
    · left
      unfold parameterMsgs at h
      split at h
      · simp at h
      · rw [List.mem_map] at h; obtain ⟨p, _, rfl⟩ := h; rfl
      · simp only [List.mem_singleton] at h; rw [h]
    · unfold processMsgs at h
      split at h
      · simp at h
      · rw [List.mem_flatMap] at h; obtain ⟨p, _, hp⟩ := h; exact Or.inr ⟨p.1, process_at hp⟩
      · simp only [List.mem_singleton] at h; exact Or.inl (by rw [h])
  · simp only [List.mem_singleton] at h; exact Or.inl (by rw [h])

theorem constraints_at : ∀ (cs : List Val) (i : Nat) (m : Msg), m ∈ constraintsFrom i cs → m.at_ = ["structure"]
  | [], _, m, h => by simp [constraintsFrom] at h
  | c :: cs, i, m, h => by
    rw [constraintsFrom, List.mem_append] at h
    rcases h with h | h
    · unfold constraintMsgs at h
      split at h
      · rw [when_at h]
      · simp only [List.mem_singleton] at h; rw [h]
    · exact constraints_at cs (i + 1) m h

/-- The messages not about the bricks point elsewhere. -/
theorem other_at {s : List (String × Val)} {m : Msg} (h : m ∈ validate s) : m ∈ brickMsgs s ∨ m.at_ = ["structure"] ∨ m.at_ = ["structure", "options"] := by
  simp only [validate, List.mem_append] at h
  rcases h with (((((h | h) | h) | h) | h) | h) | h
  · exact Or.inr (Or.inl (keys_at h))
  · rw [when_at h]; exact Or.inr (Or.inl rfl)
  · rw [when_at h]; exact Or.inr (Or.inl rfl)
  · right
    unfold optionMsgs at h
    split at h
    · exact Or.inr (keys_at h)
    · simp only [List.mem_singleton] at h; exact Or.inl (by rw [h])
  · exact Or.inl h
  · right; left
    unfold aliasMsgs at h
    split at h
    · rw [List.mem_map] at h; obtain ⟨p, _, rfl⟩ := h; rfl
    · simp only [List.mem_singleton] at h; rw [h]
  · right; left
    unfold allConstraintMsgs at h
    split at h
    · exact constraints_at _ _ _ h
    · simp only [List.mem_singleton] at h; rw [h]

theorem brickMsgs_eq {s bs : List (String × Val)} (h : Field s "bricks" (.dict bs)) (hne : bs ≠ []) :
    brickMsgs s = bs.flatMap fun p => validateBrick p.2 ["structure", "bricks", p.1] := by
  unfold brickMsgs; unfold Field at h; rw [h]
  cases bs with
  | nil => exact absurd rfl hne
  | cons b bs => rfl

/-- **All faulty bricks are named at once, and only these**: there is a message about a brick of this name exactly when such a brick does not follow the schema. -/
theorem c93_bricks_named (s bs : List (String × Val)) (h : Field s "bricks" (.dict bs)) (hne : bs ≠ []) (k : String) :
    (∃ m ∈ validate s, ["structure", "bricks", k] <+: m.at_) ↔ ∃ b ∈ bs, b.1 = k ∧ ¬ BrickOk b.2 := by
  constructor
  · rintro ⟨m, hm, hp⟩
    rcases other_at hm with hm | hm | hm
    · rw [brickMsgs_eq h hne, List.mem_flatMap] at hm
      obtain ⟨b, hb, hm⟩ := hm
      refine ⟨b, hb, ?_, fun hok => ?_⟩
      · rcases brick_at hm with e | ⟨q, e⟩
        · rw [e] at hp
          have := hp.eq_of_length rfl
          simpa using this.symm
        · rw [e] at hp
          have := List.prefix_of_prefix_length_le hp (List.prefix_append ["structure", "bricks", b.1] ["processes", q]) (by simp)
          have := this.eq_of_length rfl
          simpa using this.symm
      · rw [(brick_ok b.2 _).mpr hok] at hm; simp at hm
    · rw [hm] at hp; have := hp.length_le; simp at this
    · rw [hm] at hp; have := hp.length_le; simp at this
  · rintro ⟨b, hb, rfl, hbad⟩
    cases hv : validateBrick b.2 ["structure", "bricks", b.1] with
    | nil => exact absurd ((brick_ok _ _).mp hv) hbad
    | cons m ms =>
      have hm : m ∈ validateBrick b.2 ["structure", "bricks", b.1] := by rw [hv]; simp
      refine ⟨m, ?_, ?_⟩
      · simp only [validate, List.mem_append]
        refine Or.inl (Or.inl (Or.inr ?_))
        rw [brickMsgs_eq h hne, List.mem_flatMap]
        exact ⟨b, hb, hm⟩
      · rcases brick_at hm with e | ⟨q, e⟩
        · rw [e]; exact List.prefix_rfl
        · rw [e]; exact List.prefix_append _ _

/-- **The same for the processes.** -/
theorem c93_processes_named (s bs : List (String × Val)) (h : Field s "bricks" (.dict bs)) (k q : String) :
    (∃ m ∈ validate s, m.at_ = ["structure", "bricks", k, "processes", q]) ↔
      ∃ b ∈ bs, b.1 = k ∧ ∃ d ps, b.2 = .dict d ∧ Field d "processes" (.dict ps) ∧ ∃ p ∈ ps, p.1 = q ∧ ¬ ProcessOk p.2 := by
  have hmem : ∀ m, m ∈ brickMsgs s → m.at_.length = 5 → ∃ b ∈ bs, m ∈ validateBrick b.2 ["structure", "bricks", b.1] := by
    intro m hm hl
    by_cases hne : bs = []
    · subst hne; unfold brickMsgs at hm; unfold Field at h; rw [h] at hm; simp at hm; rw [hm] at hl; simp at hl
    · rw [brickMsgs_eq h hne, List.mem_flatMap] at hm; exact hm
  constructor
  · rintro ⟨m, hm, hp⟩
    rcases other_at hm with hm | hm | hm
    · obtain ⟨b, hb, hm⟩ := hmem m hm (by rw [hp]; rfl)
      refine ⟨b, hb, ?_⟩
      rcases brick_at hm with e | ⟨q', e⟩
      · rw [e] at hp; simp at hp
      · rw [e] at hp
        simp only [List.cons_append, List.nil_append, List.cons.injEq, and_true, true_and] at hp
        refine ⟨hp.1, ?_⟩
        unfold validateBrick at hm
        split at hm
        · rename_i d hd
          have hlong : m.at_ ≠ ["structure", "bricks", b.1] := by rw [e]; simp
          simp only [validateBrickDict, List.mem_append] at hm
          rcases hm with ((((hm | hm) | hm) | hm) | hm) | hm
          · exact absurd (keys_at hm) hlong
          · exact absurd (by rw [when_at hm]) hlong
          · exact absurd (by rw [when_at hm]) hlong
          · exact absurd (by rw [when_at hm]) hlong
          · exfalso
            unfold parameterMsgs at hm
            split at hm
            · simp at hm
            · rw [List.mem_map] at hm; obtain ⟨p, _, rfl⟩ := hm; exact hlong rfl
            · simp only [List.mem_singleton] at hm; exact hlong (by rw [hm])
          · unfold processMsgs at hm
            split at hm
            · simp at hm
            · rename_i ps hps
              rw [List.mem_flatMap] at hm
              obtain ⟨p, hpm, hm⟩ := hm
              refine ⟨d, ps, hd, hps, p, hpm, ?_, fun hok => ?_⟩
              · have := process_at hm
                rw [e] at this
                simp at this
                rw [← this, hp.2]
              · rw [(process_ok p.2 _).mpr hok] at hm; simp at hm
            · simp only [List.mem_singleton] at hm; exact absurd (by rw [hm]) hlong
        · simp only [List.mem_singleton] at hm
          rw [hm] at e; simp at e
    · rw [hm] at hp; simp at hp
    · rw [hm] at hp; simp at hp
  · rintro ⟨b, hb, rfl, d, ps, hd, hps, p, hp, rfl, hbad⟩
    cases hv : validateProcess p.2 ["structure", "bricks", b.1, "processes", p.1] with
    | nil => exact absurd ((process_ok _ _).mp hv) hbad
    | cons m ms =>
      have hm : m ∈ validateProcess p.2 ["structure", "bricks", b.1, "processes", p.1] := by rw [hv]; simp
      refine ⟨m, ?_, process_at hm⟩
      simp only [validate, List.mem_append]
      refine Or.inl (Or.inl (Or.inr ?_))
      rw [brickMsgs_eq h (List.ne_nil_of_mem hb), List.mem_flatMap]
      refine ⟨b, hb, ?_⟩
      rw [hd]
      simp only [validateBrick, validateBrickDict, List.mem_append]
      right
      unfold processMsgs; unfold Field at hps; rw [hps]
      rw [List.mem_flatMap]
      exact ⟨p, hp, hm⟩

/-! ## Reading -/

theorem strings_map : ∀ ts : List String, strings (ts.map .str) = ts
  | [] => rfl
  | t :: ts => by simp [strings, strings_map ts]

theorem boolOf_iff (d : List (String × Val)) (k : String) : boolOf d k = true ↔ Field d k (.bool true) := by
  unfold boolOf Field
  cases h : get d k with
  | none => simp
  | some v => cases v <;> simp

theorem mayLack_iff (kind : String) : Wire.mayLackTarget kind = true ↔ (Begins kind "et:" ∨ Begins kind "interception:") := by
  unfold Wire.mayLackTarget Begins; simp only [Bool.or_eq_true, List.isPrefixOf_iff_prefix]

/-- A process accepted by the validation and that the generator does not refuse. -/
def Targeted (p : Val) : Prop := ∀ d, p = .dict d → Absent d "target" → Absent d "targets" → ∀ kind, Field d "kind" (.str kind) → ¬ Begins kind "sublimation:"

theorem read_process (brick : String) (p : String × Val) (h : ProcessOk p.2) (hs : Targeted p.2) : ∃ it, readProcess brick p = .ok it ∧ SameProcess p it := by
  obtain ⟨d, kind, hd, _, hk, ht, _, _⟩ := h
  have hls : lacksStr d "kind" = false := (lacksStr_false d "kind").mpr ⟨kind, hk⟩
  unfold readProcess
  rw [hd]
  simp only [hls, Bool.false_eq_true, if_false]
  rcases ht with ⟨t, a, b⟩ | ⟨ts, a, b⟩ | ⟨a, b, c⟩
  · have : targetsOf d = some [t] := by unfold targetsOf; unfold Absent at b; unfold Field at a; rw [b, a]
    rw [this]
    exact ⟨_, rfl, rfl, d, hd, by rw [strOf_eq hk]; exact hk, boolOf_iff d _, Or.inl ⟨t, a, rfl⟩⟩
  · have : targetsOf d = some ts := by unfold targetsOf; unfold Field at a; rw [a]; simp [strings_map]
    rw [this]
    exact ⟨_, rfl, rfl, d, hd, by rw [strOf_eq hk]; exact hk, boolOf_iff d _, Or.inr (Or.inl a)⟩
  · have hm : Wire.mayLackTarget (strOf d "kind") = true := by
      rw [strOf_eq hk, mayLack_iff]
      rcases c with c | c | c
      · exact Or.inl c
      · exact Or.inr c
      · exact absurd c (hs d hd a b kind hk)
    have : targetsOf d = some [] := by unfold targetsOf; unfold Absent at a b; rw [b, a]; simp [hm]
    rw [this]
    exact ⟨_, rfl, rfl, d, hd, by rw [strOf_eq hk]; exact hk, boolOf_iff d _, Or.inr (Or.inr ⟨a, b, rfl⟩)⟩

theorem mapM_rel {α β : Type} (f : α → Except Err β) (R : α → β → Prop) : ∀ l : List α, (∀ x ∈ l, ∃ y, f x = .ok y ∧ R x y) → ∃ ys, l.mapM f = .ok ys ∧ List.Forall₂ R l ys
  | [], _ => ⟨[], rfl, .nil⟩
  | x :: l, h => by
    obtain ⟨y, h1, h2⟩ := h x (by simp)
    obtain ⟨ys, h3, h4⟩ := mapM_rel f R l (fun z hz => h z (by simp [hz]))
    exact ⟨y :: ys, by rw [List.mapM_cons, h1, h3]; rfl, .cons h2 h4⟩

theorem get_append {d : List (String × Val)} {k k' : String} {v : Val} (h : k ≠ k') : get (d ++ [(k', v)]) k = get d k := by
  unfold get
  rw [List.find?_append]
  cases d.find? fun p => decide (p.1 = k) with
  | none => simp [Ne.symm h]
  | some x => rfl

theorem get_append_self {d : List (String × Val)} {k : String} {v : Val} (h : get d k = none) : get (d ++ [(k, v)]) k = some v := by
  unfold get at *
  rw [Option.map_eq_none_iff] at h
  rw [List.find?_append, h]
  simp

/-- What is in the placed brick. -/
theorem placed_get (d : List (String × Val)) : ∃ d', placed (.dict d) = .dict d' ∧ (∀ k, k ≠ "attach_to" → get d' k = get d k) ∧
    get d' "attach_to" = some ((get d "attach_to").getD (.str "hydro_unit")) := by
  unfold placed
  by_cases h : has d "attach_to" = true
  · simp only [h, if_true]
    refine ⟨d, rfl, fun _ _ => rfl, ?_⟩
    unfold has at h
    cases hg : get d "attach_to" with
    | none => rw [hg] at h; cases h
    | some v => rfl
  · simp only [h, if_false]
    have h' : get d "attach_to" = none := (has_iff d "attach_to").mp (by simpa using h)
    refine ⟨_, rfl, fun k hk => get_append hk, ?_⟩
    rw [get_append_self h', h']; rfl

theorem read_brick (b : String × Val) (h : BrickOk b.2)
    (hs : ∀ d ps, b.2 = .dict d → Field d "processes" (.dict ps) → ∀ p ∈ ps, Targeted p.2) : ∃ it, readBrick (b.1, placed b.2) = .ok it ∧ SameBrick b it := by
  obtain ⟨d, kind, hd, _, hk, hpl, _, _, hpr⟩ := h
  obtain ⟨d', e, hg, ha⟩ := placed_get d
  have hk' : Field d' "kind" (.str kind) := by unfold Field; rw [hg _ (by decide)]; exact hk
  have hls : lacksStr d' "kind" = false := (lacksStr_false d' "kind").mpr ⟨kind, hk'⟩
  have hdir : boolOf d' "computed_directly" = boolOf d "computed_directly" := by unfold boolOf; rw [hg _ (by decide)]
  -- the processes
  have hproc : ∃ ps procs, processesOf d' = some ps ∧ ((Absent d "processes" ∧ ps = []) ∨ Field d "processes" (.dict ps)) ∧
      ps.mapM (readProcess b.1) = .ok procs ∧ List.Forall₂ SameProcess ps procs := by
    rcases hpr with hpr | ⟨ps, hps, hok⟩
    · exact ⟨[], [], by unfold processesOf; rw [hg _ (by decide)]; unfold Absent at hpr; rw [hpr], Or.inl ⟨hpr, rfl⟩, rfl, .nil⟩
    · obtain ⟨procs, h1, h2⟩ := mapM_rel (readProcess b.1) SameProcess ps (fun p hp => read_process b.1 p (hok p hp) (hs d ps hd hps p hp))
      exact ⟨ps, procs, by unfold processesOf; rw [hg _ (by decide)]; unfold Field at hps; rw [hps], Or.inr hps, h1, h2⟩
  obtain ⟨ps, procs, p1, p2, p3, p4⟩ := hproc
  -- the place
  have hplace : ∃ pl, placeOf d' = some pl ∧ ((kind = "land_cover" ∧ pl = .cover) ∨
      (kind ≠ "land_cover" ∧ (Absent d "attach_to" ∨ Field d "attach_to" (.str "hydro_unit")) ∧ pl = .unit) ∨
      (kind ≠ "land_cover" ∧ Field d "attach_to" (.str "sub_basin") ∧ pl = .basin)) := by
    unfold placeOf
    rw [strOf_eq hk', ha]
    by_cases hc : kind = "land_cover"
    · exact ⟨.cover, by rw [if_pos hc], Or.inl ⟨hc, rfl⟩⟩
    · rw [if_neg hc]
      rcases hpl with h | h | h | h
      · exact absurd h hc
      · refine ⟨.unit, ?_, Or.inr (Or.inl ⟨hc, Or.inl h, rfl⟩)⟩
        unfold Absent at h; rw [h]; rfl
      · refine ⟨.unit, ?_, Or.inr (Or.inl ⟨hc, Or.inr h, rfl⟩)⟩
        unfold Field at h; rw [h]; rfl
      · refine ⟨.basin, ?_, Or.inr (Or.inr ⟨hc, h, rfl⟩)⟩
        unfold Field at h; rw [h]; rfl
  obtain ⟨pl, q1, q2⟩ := hplace
  refine ⟨⟨b.1, pl, kind, boolOf d "computed_directly", procs⟩, ?_, rfl, d, hd, hk, q2, boolOf_iff d _, ps, p2, p4⟩
  unfold readBrick
  rw [hd, e]
  simp only [hls, Bool.false_eq_true, if_false, q1, p1, p3, strOf_eq hk', hdir]
  rfl

/-! ## Options -/

theorem get_set (d : List (String × Val)) (k k' : String) (v : Val) : get (set d k v) k' = if k' = k then some v else get d k' := by
  unfold set
  by_cases h : has d k = true
  · rw [if_pos h]
    unfold has get at h
    rw [Option.isSome_map] at h
    unfold get
    induction d with
    | nil => simp at h
    | cons p d ih =>
      obtain ⟨a, x⟩ := p
      simp only [List.map_cons, List.find?_cons]
      by_cases ha : a = k
      · subst ha
        by_cases hk : k' = a
        · subst hk; simp
        · rw [if_neg hk]
          have hk2 : a ≠ k' := fun e => hk e.symm
          simp only [if_true, hk2, decide_false]
          by_cases hd : (d.find? fun p => decide (p.1 = a)).isSome = true
          · rw [ih hd, if_neg hk]
          · have hno : ∀ p ∈ d, p.1 ≠ a := by
              intro p hp hpa
              exact hd (List.find?_isSome.mpr ⟨p, hp, by simp [hpa]⟩)
            congr 1
            have : d.map (fun p => if p.1 = a then (a, v) else p) = d := by
              conv_rhs => rw [← List.map_id d]
              refine List.map_congr_left (fun p hp => ?_)
              rw [if_neg (hno p hp)]; rfl
            rw [this]
      · simp only [List.find?_cons, ha, decide_false] at h
        simp only [if_neg ha]
        by_cases hk : a = k'
        · subst hk; simp [ha]
        · simp only [hk, decide_false]
          exact ih h
  · rw [if_neg h]
    have hn : get d k = none := (has_iff d k).mp (by simpa using h)
    by_cases hk : k' = k
    · subst hk; rw [get_append_self hn]; simp
    · rw [get_append hk, if_neg hk]

theorem get_mem {d : List (String × Val)} {k : String} : get d k = none ↔ k ∉ d.map (·.1) := by
  unfold get
  rw [Option.map_eq_none_iff, List.find?_eq_none]
  simp only [decide_eq_true_eq, List.mem_map, not_exists, not_and]

theorem get_update (other : List (String × Val)) : ∀ (d : List (String × Val)) (k : String), (other.map (·.1)).Nodup →
    get (update d other) k = (get other k).or (get d k) := by
  induction other with
  | nil => intro d k _; simp [update, get]
  | cons p other ih =>
    intro d k h
    obtain ⟨a, v⟩ := p
    rw [List.map_cons, List.nodup_cons] at h
    have e : update d ((a, v) :: other) = update (set d a v) other := rfl
    rw [e, ih _ _ h.2, get_set]
    by_cases hk : k = a
    · subst hk
      have : get other k = none := get_mem.mpr h.1
      rw [this]; simp [get]
    · have hk2 : a ≠ k := fun e => hk e.symm
      have : get ((a, v) :: other) k = get other k := by unfold get; simp [hk2]
      rw [this, if_neg hk]

/-- **The options**: an argument the caller gives wins over the structure, which wins over the default; an argument that is neither an option nor one of the common
arguments is refused. -/
theorem c93_options (s kwargs : List (String × Val)) (h1 : (kwargs.map (·.1)).Nodup) (h2 : ∀ o, Field s "options" (.dict o) → (o.map (·.1)).Nodup) (hok : StructureOk s) :
    ((∃ k ∈ kwargs.map (·.1), k ∉ ["solver", "record_all", "land_cover_types", "land_cover_names"] ∧ k ∉ optionNames) → ∃ k, options s kwargs = .error (.kwarg k)) ∧
    ((∀ k ∈ kwargs.map (·.1), k ∈ ["solver", "record_all", "land_cover_types", "land_cover_names"] ∨ k ∈ optionNames) →
      ∃ o, options s kwargs = .ok o ∧ ∀ k ∈ optionNames,
        (∀ v, Field kwargs k v → Field o k v) ∧
        (Absent kwargs k → ∀ so v, Field s "options" (.dict so) → Field so k v → Field o k v) ∧
        (Absent kwargs k → (∀ so, Field s "options" (.dict so) → Absent so k) → ∀ v, Field defaults k v → Field o k v)) := by
  have hspec : specOptions s = [] ∧ (∀ so, Field s "options" (.dict so) → so = []) ∨ ∃ so, Field s "options" (.dict so) ∧ specOptions s = so ∧ KnownKeys so optionNames := by
    rcases hok.2.2.2.1 with h | ⟨so, h, hk⟩
    · left
      refine ⟨by unfold specOptions; rw [getOr_of_empty _ h], fun so hso => ?_⟩
      have := empty_not_truthy h hso
      simpa [truthy] using this
    · right
      refine ⟨so, h, ?_, hk⟩
      unfold specOptions
      rcases getOr_cases s "options" (.dict []) with h' | ⟨v, hv, _, he⟩
      · rw [getOr_of_empty _ h']
        have := empty_not_truthy h' h
        simpa [truthy] using this.symm
      · rw [he]; unfold Field at h hv; rw [h] at hv; cases hv; rfl
  have hnd : ((specOptions s).map (·.1)).Nodup := by
    rcases hspec with ⟨h, _⟩ | ⟨so, h, e, _⟩
    · rw [h]; simp
    · rw [e]; exact h2 so h
  have hdn : (defaults.map (·.1)).Nodup := by decide
  have hget : ∀ k, get (update (update [] defaults) (specOptions s)) k = (get (specOptions s) k).or (get defaults k) := by
    intro k
    rw [get_update _ _ _ hnd, get_update _ _ _ hdn]
    simp [get]
  have hhas : ∀ k, has (update (update [] defaults) (specOptions s)) k = true ↔ k ∈ optionNames := by
    intro k
    have hd : k ∈ optionNames ↔ get defaults k ≠ none := by
      rw [Ne, get_mem, not_not]; rfl
    have hso : get (specOptions s) k ≠ none → k ∈ optionNames := by
      intro hne
      rw [Ne, get_mem, not_not, List.mem_map] at hne
      obtain ⟨p, hp, rfl⟩ := hne
      rcases hspec with ⟨h, _⟩ | ⟨so, _, e, hk⟩
      · rw [h] at hp; simp at hp
      · rw [e] at hp; exact hk p hp
    unfold has
    rw [hget, hd]
    cases h1 : get (specOptions s) k with
    | none => cases h2 : get defaults k <;> simp
    | some v => simpa using hd.mp (hso (by rw [h1]; simp))
  have hfind : ∀ p : String × Val, (decide (p.1 ∉ commonKwargs) && !has (update (update [] defaults) (specOptions s)) p.1) = true ↔ (p.1 ∉ commonKwargs ∧ p.1 ∉ optionNames) := by
    intro p
    rw [Bool.and_eq_true, decide_eq_true_eq, Bool.not_eq_true', ← hhas p.1, Bool.not_eq_true]
  constructor
  · rintro ⟨k, hk, n1, n2⟩
    rw [List.mem_map] at hk
    obtain ⟨p, hp, rfl⟩ := hk
    have : (kwargs.find? fun p => decide (p.1 ∉ commonKwargs) && !has (update (update [] defaults) (specOptions s)) p.1).isSome = true :=
      List.find?_isSome.mpr ⟨p, hp, (hfind p).mpr ⟨n1, n2⟩⟩
    obtain ⟨x, hx⟩ := Option.isSome_iff_exists.mp this
    exact ⟨x.1, by unfold options; simp only [hx]⟩
  · intro hall
    have hnone : (kwargs.find? fun p => decide (p.1 ∉ commonKwargs) && !has (update (update [] defaults) (specOptions s)) p.1) = none := by
      rw [List.find?_eq_none]
      intro p hp hc
      have := (hfind p).mp hc
      rcases hall p.1 (List.mem_map.mpr ⟨p, hp, rfl⟩) with h | h
      · exact this.1 h
      · exact this.2 h
    refine ⟨update (update (update [] defaults) (specOptions s)) (kwargs.filter fun p => decide (p.1 ∉ commonKwargs)), by unfold options; simp only [hnone], fun k hk => ?_⟩
    have hkc : k ∉ commonKwargs := by
      revert hk; unfold optionNames commonKwargs
      intro hk
      simp only [List.mem_cons, List.not_mem_nil, or_false] at hk
      rcases hk with rfl | rfl | rfl | rfl | rfl | rfl | rfl | rfl | rfl <;> decide
    have hfil : get (kwargs.filter fun p => decide (p.1 ∉ commonKwargs)) k = get kwargs k := by
      unfold get
      rw [List.find?_filter]
      congr 2
      funext p
      by_cases hp : p.1 = k
      · simp [hp, hkc]
      · simp [hp]
    have hndk : ((kwargs.filter fun p => decide (p.1 ∉ commonKwargs)).map (·.1)).Nodup := h1.sublist (List.filter_sublist.map _)
    have hfin : ∀ v, Field (update (update (update [] defaults) (specOptions s)) (kwargs.filter fun p => decide (p.1 ∉ commonKwargs))) k v ↔
        (get kwargs k).or ((get (specOptions s) k).or (get defaults k)) = some v := by
      intro v; unfold Field; rw [get_update _ _ _ hndk, hget, hfil]
    refine ⟨fun v hv => ?_, fun ha so v hs hv => ?_, fun ha hs v hv => ?_⟩
    · rw [hfin]; unfold Field at hv; rw [hv]; rfl
    · rw [hfin]; unfold Absent at ha; rw [ha]
      rcases hspec with ⟨_, h⟩ | ⟨so', hso', e, _⟩
      · rw [h so hs] at hv; unfold Field at hv; simp [get] at hv
      · unfold Field at hs hso'; rw [hs] at hso'; cases hso'
        rw [e]; unfold Field at hv; rw [hv]; rfl
    · rw [hfin]; unfold Absent at ha; rw [ha]
      have : get (specOptions s) k = none := by
        rcases hspec with ⟨h, _⟩ | ⟨so', hso', e, _⟩
        · rw [h]; rfl
        · rw [e]; exact hs so' hso'
      rw [this]; unfold Field at hv; rw [hv]; rfl

/-- **What is generated**: an accepted structure whose land covers the model has, and without a sublimation lacking a target, is read without error into a description
that says what is declared, brick by brick and process by process, in the order of the declaration. -/
theorem c93_generated (s kwargs : List (String × Val)) (names : List String) (bs : List (String × Val)) (hok : StructureOk s) (hb : Field s "bricks" (.dict bs))
    (o : List (String × Val)) (ho : options s kwargs = .ok o)
    (hc : ∀ b ∈ bs, ∀ d, b.2 = .dict d → Field d "kind" (.str "land_cover") → b.1 ∈ names)
    (hs : ∀ b ∈ bs, ∀ d ps, b.2 = .dict d → Field d "processes" (.dict ps) → ∀ p ∈ ps, Targeted p.2) :
    ∃ items, customModel s kwargs names = .ok (o, items) ∧ List.Forall₂ SameBrick bs items := by
  obtain ⟨bs', hb', _, hbok⟩ := hok.2.2.2.2.1
  have : bs' = bs := by unfold Field at hb hb'; rw [hb] at hb'; cases hb'; rfl
  subst this
  have hbr : bricks s = bs'.map fun p => (p.1, placed p.2) := by unfold bricks; unfold Field at hb; rw [hb]
  obtain ⟨items, h1, h2⟩ := mapM_rel (fun b : String × Val => readBrick (b.1, placed b.2)) SameBrick bs' (fun b hb => read_brick b (hbok b hb) (hs b hb))
  refine ⟨items, ?_, h2⟩
  have hv : ¬ validate s ≠ [] := not_not.mpr ((c93_accepts s).mpr hok)
  have hfind : ((bricks s).find? fun b => isCover b.2 && decide (b.1 ∉ names)) = none := by
    rw [List.find?_eq_none, hbr]
    intro b hbm hcov
    rw [List.mem_map] at hbm
    obtain ⟨p, hp, rfl⟩ := hbm
    rw [Bool.and_eq_true, decide_eq_true_eq] at hcov
    obtain ⟨d, kind, hd, _, hk, _⟩ := hbok p hp
    obtain ⟨d', e, hg, _⟩ := placed_get d
    have h1 := hcov.1
    rw [hd, e] at h1
    unfold isCover at h1
    have hk' : Field d' "kind" (.str kind) := by unfold Field; rw [hg _ (by decide)]; exact hk
    simp only [strOf_eq hk', decide_eq_true_eq] at h1
    subst h1
    exact hcov.2 (hc p hp d hd hk)
  unfold customModel
  rw [if_neg hv, ho]
  have hm : (bricks s).mapM readBrick = .ok items := by rw [hbr, List.mapM_map]; exact h1
  show (match (bricks s).find? fun b => isCover b.2 && decide (b.1 ∉ names) with
    | some b => Except.error (Err.unknownCover b.1)
    | none => (bricks s).mapM readBrick >>= fun items => Except.ok (o, items)) = _
  rw [hfind, hm]
  rfl

end HB.Custom
