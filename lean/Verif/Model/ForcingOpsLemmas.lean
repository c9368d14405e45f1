import Verif.Spec.ForcingOps
import Mathlib.Tactic.Ring

/-! # Lemmas about the forcing operations -/

namespace HB.ForcingOps

open HB.Spec.ForcingOps

set_option linter.unusedSectionVars false

theorem ebind {α β : Type} {a : Except String α} {f : α → Except String β} {b : β} (h : (a >>= f) = .ok b) :
    ∃ x, a = .ok x ∧ f x = .ok b := by
  cases a with
  | error e => exact absurd h (by intro h; cases h)
  | ok x => exact ⟨x, rfl, h⟩

section tables
variable {α : Type}

theorem look_find (v : Var) (l : List (Var × α)) :
    look v l = (l.find? fun e => decide (e.1 = v)).map (·.2) := by
  induction l with
  | nil => rfl
  | cons e l ih =>
    obtain ⟨w, a⟩ := e
    by_cases h : w = v
    · simp [look, h]
    · simp [look, h, ih]

theorem look_put (v w : Var) (a : α) (l : List (Var × α)) :
    look w (put v a l) = if w = v then (look v l).map (fun _ => a) else look w l := by
  induction l with
  | nil => simp [look, put]
  | cons e l ih =>
    obtain ⟨u, b⟩ := e
    by_cases hu : u = v
    · by_cases hw : w = v
      · subst hu; subst hw; simp [put, look]
      · subst hu
        simp [put, look, hw, Ne.symm hw]
    · by_cases hw : w = v
      · subst hw
        simp only [put, if_neg hu, look, ih, if_true]
      · simp only [put, if_neg hu, look, ih, if_neg hw]

theorem look_append (v : Var) (l k : List (Var × α)) :
    look v (l ++ k) = (look v l).or (look v k) := by
  induction l with
  | nil => simp [look]
  | cons e l ih =>
    obtain ⟨u, b⟩ := e
    by_cases hu : u = v
    · simp [look, hu]
    · simp [look, hu, ih]

theorem look_store (v w : Var) (a : α) (l : List (Var × α)) :
    look w (store v a l) = if w = v then some a else look w l := by
  unfold store
  by_cases h : (look v l).isSome
  · rw [if_pos h, look_put]
    by_cases hw : w = v
    · rw [if_pos hw, if_pos hw]
      obtain ⟨x, hx⟩ := Option.isSome_iff_exists.1 h
      rw [hx]; rfl
    · rw [if_neg hw, if_neg hw]
  · rw [if_neg h, look_append]
    have hn : look v l = none := by simpa using h
    by_cases hw : w = v
    · subst hw; simp [hn, look]
    · rw [if_neg hw]
      simp [look, Ne.symm hw]

theorem put_mem (v : Var) (a : α) (l : List (Var × α)) (e : Var × α) (h : e ∈ put v a l) : e ∈ l ∨ e = (v, a) := by
  induction l with
  | nil => exact absurd h (by simp [put])
  | cons d l ih =>
    obtain ⟨u, b⟩ := d
    by_cases hu : u = v
    · subst hu
      simp only [put, if_true, List.mem_cons] at h
      rcases h with h | h
      · exact .inr h
      · exact .inl (List.mem_cons_of_mem _ h)
    · simp only [put, if_neg hu, List.mem_cons] at h
      rcases h with h | h
      · exact .inl (h ▸ List.mem_cons_self)
      · rcases ih h with h | h
        · exact .inl (List.mem_cons_of_mem _ h)
        · exact .inr h

theorem look_mem (v : Var) (a : α) (l : List (Var × α)) (h : look v l = some a) : (v, a) ∈ l := by
  induction l with
  | nil => exact absurd h (by simp [look])
  | cons d l ih =>
    obtain ⟨u, b⟩ := d
    by_cases hu : u = v
    · subst hu
      simp only [look, if_true, Option.some.injEq] at h
      subst h
      exact List.mem_cons_self
    · simp only [look, if_neg hu] at h
      exact List.mem_cons_of_mem _ (ih h)

end tables

theorem mapM_ok {α β : Type} (f : α → Except String β) (l : List α) (r : List β) (h : l.mapM f = .ok r) :
    r.length = l.length ∧ ∀ (i : ℕ) (z : α), l[i]? = some z → ∃ c, r[i]? = some c ∧ f z = .ok c := by
  induction l generalizing r with
  | nil =>
    rw [List.mapM_nil] at h
    cases h
    exact ⟨rfl, fun i z hz => by simp at hz⟩
  | cons a l ih =>
    rw [List.mapM_cons] at h
    obtain ⟨c, hc, h⟩ := ebind h
    obtain ⟨cs, hcs, h⟩ := ebind h
    cases h
    obtain ⟨hl, hi⟩ := ih cs hcs
    refine ⟨by simp [hl], fun i z hz => ?_⟩
    cases i with
    | zero =>
      simp only [List.getElem?_cons_zero, Option.some.injEq] at hz
      subst hz
      exact ⟨c, rfl, hc⟩
    | succ i => simpa using hi i z (by simpa using hz)

section
variable {K : Type} [Field K] [LinearOrder K]

theorem value_given {ps : Option (Pars K)} {a : Option (Arg K)} {v : Val K} (h : Given ps a v) :
    optValue ps a = .ok (some v) := by
  rcases h with h | ⟨n, p, h, hp, hg⟩
  · subst h; rfl
  · subst h; subst hp; exact hg

theorem value_notGiven {ps : Option (Pars K)} {a : Option (Arg K)} (h : NotGiven ps a) :
    optValue ps a = .ok none := by
  rcases h with h | ⟨n, p, h, hp, hg⟩
  · subst h; rfl
  · subst h; subst hp; exact hg

theorem given_of_value {ps : Option (Pars K)} {a : Option (Arg K)} {v : Val K} (h : optValue ps a = .ok (some v)) :
    Given ps a v := by
  cases a with
  | none => cases h
  | some a =>
    cases a with
    | val w => left; cases h; rfl
    | param n =>
      right
      cases ps with
      | none => cases h
      | some p => exact ⟨n, p, rfl, rfl, h⟩

theorem notGiven_of_value {ps : Option (Pars K)} {a : Option (Arg K)} (h : optValue ps a = .ok none) :
    NotGiven ps a := by
  cases a with
  | none => left; rfl
  | some a =>
    cases a with
    | val w => cases h
    | param n =>
      right
      cases ps with
      | none => cases h
      | some p => exact ⟨n, p, rfl, rfl, h⟩

theorem resolve_ok {ps : Option (Pars K)} {o : Spat K} {opts : Opts K} (h : o.resolve ps = .ok opts) :
    optValue ps o.ref = .ok opts.ref ∧ optValue ps o.gradient2 = .ok opts.gradient2 ∧
      optValue ps o.threshold = .ok opts.threshold ∧
      ∃ g g1, optValue ps o.gradient = .ok g ∧ optValue ps o.gradient1 = .ok g1 ∧
        opts.gradient = (match g with | none => g1 | some x => some x) := by
  unfold Spat.resolve at h
  obtain ⟨r, hr, h⟩ := ebind h
  obtain ⟨g, hg, h⟩ := ebind h
  obtain ⟨g1, hg1, h⟩ := ebind h
  obtain ⟨g2, hg2, h⟩ := ebind h
  obtain ⟨th, hth, h⟩ := ebind h
  cases h
  exact ⟨hr, hg2, hth, g, g1, hg, hg1, rfl⟩

theorem resolve_gradient {ps : Option (Pars K)} {o : Spat K} {opts : Opts K} (h : o.resolve ps = .ok opts)
    {v : Val K} (hv : GradientGiven ps o v) : opts.gradient = some v := by
  obtain ⟨_, _, _, g, g1, hg, hg1, he⟩ := resolve_ok h
  rcases hv with hv | ⟨hn, hv⟩
  · have := value_given hv
    rw [hg] at this
    cases this
    exact he
  · have h1 := value_notGiven hn
    have h2 := value_given hv
    rw [hg] at h1
    rw [hg1] at h2
    cases h1
    cases h2
    exact he

theorem gradient_resolved {ps : Option (Pars K)} {o : Spat K} {opts : Opts K} (h : o.resolve ps = .ok opts)
    {v : Val K} (hv : opts.gradient = some v) : GradientGiven ps o v := by
  obtain ⟨_, _, _, g, g1, hg, hg1, he⟩ := resolve_ok h
  cases g with
  | some x =>
    left
    rw [hv] at he
    cases he
    exact given_of_value hg
  | none =>
    right
    rw [hv] at he
    refine ⟨notGiven_of_value hg, given_of_value ?_⟩
    have he' : some v = g1 := he
    rw [hg1, ← he']

theorem resolve_of {ps : Option (Pars K)} {o : Spat K} {opts : Opts K} (h : o.resolve ps = .ok opts)
    {v : Val K} :
    (Given ps o.ref v → opts.ref = some v) ∧ (Given ps o.gradient2 v → opts.gradient2 = some v) ∧
      (Given ps o.threshold v → opts.threshold = some v) := by
  obtain ⟨hr, hg2, hth, _⟩ := resolve_ok h
  refine ⟨fun hv => ?_, fun hv => ?_, fun hv => ?_⟩
  · have := value_given hv
    rw [hr] at this
    exact Except.ok.inj this
  · have := value_given hv
    rw [hg2] at this
    exact Except.ok.inj this
  · have := value_given hv
    rw [hth] at this
    exact Except.ok.inj this

/-! ### the corrections -/

theorem number_ok {v : Option (Val K)} {x : K} (h : number v = .ok x) : ∃ b, v = some (.num b x) := by
  unfold number at h
  split at h
  · cases h; exact ⟨_, rfl⟩
  · cases h

theorem correct_ok {s s' : State K} {c : Corr K} {f : Option (Val K)} (h : correct s c f = .ok s') :
    ∃ raw b k, look c.var s.station = some raw ∧ f = some (.num b k) ∧
      s' = { s with station := put c.var (raw.map fun x => if c.mult then x * k else x + k) s.station } := by
  unfold correct at h
  split at h
  · cases h
  · next raw hraw =>
    obtain ⟨k, hk, h⟩ := ebind h
    obtain ⟨b, hb⟩ := number_ok hk
    cases h
    exact ⟨raw, b, k, hraw, hb, rfl⟩

/-- The state after the corrections. -/
theorem corrections (site : Site K) (ps : Option (Pars K)) (ops : List (Op K)) (s s' : State K)
    (h : ofType site ps true ops s 0 = .ok s') :
    s'.spatial = s.spatial ∧ ∀ v raw, look v s.station = some raw →
      ∃ f : K → K, (∀ x, Corrected ps v ops x (f x)) ∧ look v s'.station = some (raw.map f) := by
  induction ops generalizing s with
  | nil =>
    cases h
    exact ⟨rfl, fun v raw hr => ⟨id, fun x => .nil x, by simpa using hr⟩⟩
  | cons op ops ih =>
    unfold ofType at h
    rw [List.foldlM_cons] at h
    obtain ⟨s1, h1, h⟩ := ebind h
    obtain ⟨hsp, hst⟩ := ih s1 h
    cases op with
    | correct c =>
      simp only [stepOp, if_true, Bool.true_or] at h1
      obtain ⟨f, hf, h1⟩ := ebind h1
      obtain ⟨raw0, b, k, hraw0, hfk, hs1⟩ := correct_ok h1
      subst hs1
      subst hfk
      have hgiven : Given ps (some c.factor) (.num b k) := given_of_value (a := some c.factor) hf
      refine ⟨hsp, fun v raw hr => ?_⟩
      by_cases hv : c.var = v
      · subst hv
        rw [hraw0] at hr
        cases hr
        obtain ⟨g, hg, hl⟩ := hst c.var _ (by rw [look_put, if_pos rfl, hraw0]; rfl)
        refine ⟨fun x => g (if c.mult then x * k else x + k), fun x => ?_, ?_⟩
        · obtain ⟨w, m, a⟩ := c
          cases m with
          | true => exact .times a b k ops x _ hgiven (hg _)
          | false => exact .plus a b k ops x _ hgiven (hg _)
        · rw [hl, List.map_map]; rfl
      · obtain ⟨g, hg, hl⟩ := hst v raw (by rw [look_put, if_neg (Ne.symm hv)]; exact hr)
        refine ⟨g, fun x => .other _ _ _ _ ?_ (hg x), hl⟩
        intro c' hc'
        cases hc'
        exact hv
    | station o =>
      have h2 : s1 = s := by
        simp only [stepOp] at h1
        cases h1
        rfl
      subst h2
      refine ⟨hsp, fun v raw hr => ?_⟩
      obtain ⟨g, hg, hl⟩ := hst v raw hr
      exact ⟨g, fun x => .other _ _ _ _ (fun c hc => by cases hc) (hg x), hl⟩
    | grid w cols =>
      have h2 : s1 = s := by
        simp only [stepOp] at h1
        cases h1
        rfl
      subst h2
      refine ⟨hsp, fun v raw hr => ?_⟩
      obtain ⟨g, hg, hl⟩ := hst v raw hr
      exact ⟨g, fun x => .other _ _ _ _ (fun c hc => by cases hc) (hg x), hl⟩
    | pet used f =>
      have h2 : s1 = s := by
        simp only [stepOp] at h1
        cases h1
        rfl
      subst h2
      refine ⟨hsp, fun v raw hr => ?_⟩
      obtain ⟨g, hg, hl⟩ := hst v raw hr
      exact ⟨g, fun x => .other _ _ _ _ (fun c hc => by cases hc) (hg x), hl⟩

/-! ### the stations -/

theorem spatialize_ok {site : Site K} {s s' : State K} {o : Spat K} {opts : Opts K}
    (h : spatialize site s o opts = .ok s') :
    ∃ raw cols, look o.var s.station = some raw ∧ columns site o.var o.method opts raw = .ok cols ∧
      s' = { s with spatial := store o.var cols s.spatial } := by
  unfold spatialize at h
  split at h
  · cases h
  · next raw hraw =>
    obtain ⟨cols, hc, h⟩ := ebind h
    cases h
    exact ⟨raw, cols, hraw, hc, rfl⟩

theorem station_step {site : Site K} {ps : Option (Pars K)} {all : Bool} {op : Op K} {s s' : State K}
    (h : stepOp site ps all 1 s op = .ok s') :
    s'.station = s.station ∧ ∀ v, (∀ o, op = .station o → o.var ≠ v) → look v s'.spatial = look v s.spatial := by
  cases op with
  | station o =>
    simp only [stepOp, if_true] at h
    obtain ⟨opts, _, h⟩ := ebind h
    split at h
    · obtain ⟨raw, cols, _, _, hs⟩ := spatialize_ok h
      subst hs
      refine ⟨rfl, fun v hv => ?_⟩
      rw [look_store, if_neg (Ne.symm (hv o rfl))]
    · cases h
      exact ⟨rfl, fun _ _ => rfl⟩
  | correct c => simp only [stepOp] at h; cases h; exact ⟨rfl, fun _ _ => rfl⟩
  | grid w cols => simp only [stepOp] at h; cases h; exact ⟨rfl, fun _ _ => rfl⟩
  | pet used f => simp only [stepOp] at h; cases h; exact ⟨rfl, fun _ _ => rfl⟩

theorem stations_keep {site : Site K} {ps : Option (Pars K)} {all : Bool} (ops : List (Op K)) {s s' : State K}
    (h : ofType site ps all ops s 1 = .ok s') :
    s'.station = s.station ∧ ∀ v, (∀ o, .station o ∈ ops → o.var ≠ v) → look v s'.spatial = look v s.spatial := by
  induction ops generalizing s with
  | nil => cases h; exact ⟨rfl, fun _ _ => rfl⟩
  | cons op ops ih =>
    unfold ofType at h
    rw [List.foldlM_cons] at h
    obtain ⟨s1, h1, h⟩ := ebind h
    obtain ⟨ha, hb⟩ := station_step h1
    obtain ⟨hc, hd⟩ := ih h
    refine ⟨hc.trans ha, fun v hv => ?_⟩
    rw [hd v (fun o ho => hv o (List.mem_cons_of_mem _ ho)), hb v (fun o ho => hv o (ho ▸ List.mem_cons_self))]

theorem stations_last {site : Site K} {ps : Option (Pars K)} {ops : List (Op K)} {s s' : State K}
    (h : ofType site ps true ops s 1 = .ok s') {o : Spat K} (hl : LastOf ops o) :
    ∃ opts raw cols, o.resolve ps = .ok opts ∧ look o.var s.station = some raw ∧
      columns site o.var o.method opts raw = .ok cols ∧ look o.var s'.spatial = some cols := by
  obtain ⟨before, after, hops, hafter⟩ := hl
  subst hops
  unfold ofType at h
  rw [List.foldlM_append] at h
  obtain ⟨s1, h1, h⟩ := ebind h
  rw [List.foldlM_cons] at h
  obtain ⟨s2, h2, h⟩ := ebind h
  obtain ⟨hst, _⟩ := stations_keep (site := site) (ps := ps) (all := true) before h1
  obtain ⟨_, hk⟩ := stations_keep (site := site) (ps := ps) (all := true) after h
  simp only [stepOp, if_true, Bool.true_or] at h2
  obtain ⟨opts, hopts, h2⟩ := ebind h2
  obtain ⟨raw, cols, hraw, hcols, hs2⟩ := spatialize_ok h2
  subst hs2
  refine ⟨opts, raw, cols, hopts, by rw [← hst]; exact hraw, hcols, ?_⟩
  rw [hk o.var hafter, look_store, if_pos rfl]

theorem grids_keep {site : Site K} {ps : Option (Pars K)} {all : Bool} (ops : List (Op K)) {s s' : State K}
    (h : ofType site ps all ops s 2 = .ok s') :
    s'.station = s.station ∧ ∀ v cols, look v s.spatial = some cols → look v s'.spatial = some cols := by
  induction ops generalizing s with
  | nil => cases h; exact ⟨rfl, fun _ _ h => h⟩
  | cons op ops ih =>
    unfold ofType at h
    rw [List.foldlM_cons] at h
    obtain ⟨s1, h1, h⟩ := ebind h
    obtain ⟨hc, hd⟩ := ih h
    have key : s1.station = s.station ∧ ∀ v cols, look v s.spatial = some cols → look v s1.spatial = some cols := by
      cases op with
      | grid w cs =>
        simp only [stepOp, if_true] at h1
        split at h1
        · cases h1
          refine ⟨rfl, fun v cols hv => ?_⟩
          rw [look_append, hv]; rfl
        · cases h1; exact ⟨rfl, fun _ _ h => h⟩
      | correct c => simp only [stepOp] at h1; cases h1; exact ⟨rfl, fun _ _ h => h⟩
      | station o => simp only [stepOp] at h1; cases h1; exact ⟨rfl, fun _ _ h => h⟩
      | pet used f => simp only [stepOp] at h1; cases h1; exact ⟨rfl, fun _ _ h => h⟩
    exact ⟨hc.trans key.1, fun v cols hv => hd v cols (key.2 v cols hv)⟩

theorem pets_keep {site : Site K} {ps : Option (Pars K)} {all : Bool} (ops : List (Op K)) {s s' : State K}
    (h : ofType site ps all ops s 3 = .ok s') :
    s'.station = s.station ∧
      ∀ v, v ≠ .pet ∨ (∀ used f, .pet used f ∉ ops) → look v s'.spatial = look v s.spatial := by
  induction ops generalizing s with
  | nil => cases h; exact ⟨rfl, fun _ _ => rfl⟩
  | cons op ops ih =>
    unfold ofType at h
    rw [List.foldlM_cons] at h
    obtain ⟨s1, h1, h⟩ := ebind h
    obtain ⟨hc, hd⟩ := ih h
    have key : s1.station = s.station ∧
        ∀ v, v ≠ .pet ∨ (∀ used f, .pet used f ∉ op :: ops) → look v s1.spatial = look v s.spatial := by
      cases op with
      | pet used f =>
        simp only [stepOp, if_true] at h1
        split at h1
        · split at h1
          · cases h1
          · cases h1
            refine ⟨rfl, fun v hv => ?_⟩
            rcases hv with hv | hv
            · rw [look_store, if_neg hv]
            · exact absurd List.mem_cons_self (hv used f)
        · cases h1; exact ⟨rfl, fun _ _ => rfl⟩
      | correct c => simp only [stepOp] at h1; cases h1; exact ⟨rfl, fun _ _ => rfl⟩
      | station o => simp only [stepOp] at h1; cases h1; exact ⟨rfl, fun _ _ => rfl⟩
      | grid w cs => simp only [stepOp] at h1; cases h1; exact ⟨rfl, fun _ _ => rfl⟩
    refine ⟨hc.trans key.1, fun v hv => ?_⟩
    rw [hd v (hv.imp_right fun hn used f hm => hn used f (List.mem_cons_of_mem _ hm)), key.2 v hv]

theorem apply_ok {site : Site K} {ps : Option (Pars K)} {all : Bool} {ops : List (Op K)} {s s' : State K}
    (h : apply site ps all ops s = .ok s') :
    ∃ s1 s2 s3 s4, ofType site ps all ops s 0 = .ok s1 ∧ ofType site ps all ops s1 1 = .ok s2 ∧
      ofType site ps all ops s2 2 = .ok s3 ∧ ofType site ps all ops s3 3 = .ok s4 ∧ s' = { s4 with applied := true } := by
  unfold apply at h
  obtain ⟨s1, h1, h⟩ := ebind h
  obtain ⟨s2, h2, h⟩ := ebind h
  obtain ⟨s3, h3, h⟩ := ebind h
  obtain ⟨s4, h4, h⟩ := ebind h
  cases h
  exact ⟨s1, s2, s3, s4, h1, h2, h3, h4, rfl⟩

/-! ### a column -/

theorem monthly_read {months : List ℕ} (hm : ∀ m ∈ months, 1 ≤ m ∧ m ≤ 12) {v : Val K} {g : Grad K}
    (h : IsGrad v g) : monthly months (some v) = .ok (months.map fun m => g.inMonth m) := by
  cases g with
  | fixed g =>
    rcases h with h | h
    · subst h; rfl
    · subst h; rfl
  | monthly g =>
    obtain ⟨xs, h, h12, hx⟩ := h
    subst h
    have h1 : ¬ xs.length = 1 := by omega
    simp only [monthly, if_neg h1, if_pos h12]
    congr 1
    refine List.map_congr_left fun m hmm => ?_
    obtain ⟨ha, hb⟩ := hm m hmm
    rw [List.getD_eq_getElem?_getD, hx m ha hb]
    rfl

theorem spread_read (n : ℕ) {v : Val K} {g : K} (h : IsSingle v g) : spread n (some v) = .ok (List.replicate n g) := by
  rcases h with ⟨b, h⟩ | h
  · subst h; rfl
  · subst h; rfl

theorem zip_months (F : K → K → K) (raw : List K) (months : List ℕ) (G : ℕ → K) (t : ℕ) (x : K) (m : ℕ)
    (hx : raw[t]? = some x) (hm : months[t]? = some m) :
    (List.zipWith F raw (months.map G))[t]? = some (F x (G m)) := by
  rw [List.getElem?_zipWith, hx, List.getElem?_map, hm]; rfl

theorem zip_rep (F : K → K → K) (raw : List K) (n : ℕ) (hn : raw.length = n) (g : K) :
    List.zipWith F raw (List.replicate n g) = raw.map fun x => F x g := by
  subst hn
  induction raw with
  | nil => rfl
  | cons a l ih => simp [List.replicate_succ, ih]

/-- A column is the rule, time by time. -/
theorem column_rule {ps : Option (Pars K)} {o : Spat K} {opts : Opts K} (hres : o.resolve ps = .ok opts)
    {rule : Rule K} (hr : Means ps o rule) {m : Method} (hm : o.method.actual o.var = .ok m) {months : List ℕ}
    (hmon : ∀ m ∈ months, 1 ≤ m ∧ m ≤ 12) {raw : List K} (hlen : raw.length = months.length) (z : K) :
    ∃ c, column m months opts raw z = .ok c ∧ c.length = raw.length ∧
      ∀ (t : ℕ) (x : K) (mo : ℕ), raw[t]? = some x → months[t]? = some mo → c[t]? = some (rule.value mo z x) := by
  cases rule with
  | same =>
    have : m = .constant := by
      rcases hr with hr | ⟨hr, hv⟩
      · rw [hr] at hm; cases hm; rfl
      · rw [hr, hv] at hm; cases hm; rfl
    subst this
    exact ⟨raw, rfl, rfl, fun t x mo hx _ => hx⟩
  | additive r g =>
    obtain ⟨hmeth, ⟨b, hb⟩, v, hv, hg⟩ := hr
    have : m = .additive := by
      rcases hmeth with hr | ⟨hr, hv⟩
      · rw [hr] at hm; cases hm; rfl
      · rw [hr, hv] at hm; cases hm; rfl
    subst this
    have e1 := (resolve_of hres).1 hb
    have e2 := resolve_gradient hres hv
    simp only [column, e1, e2, monthly_read hmon hg, number]
    refine ⟨_, rfl, by simp [hlen], fun t x mo hx hmo => ?_⟩
    rw [zip_months _ _ _ _ _ _ _ hx hmo]
    congr 1
    simp only [Rule.value]
    ring
  | multiplicative r g =>
    obtain ⟨hmeth, ⟨b, hb⟩, v, hv, hg⟩ := hr
    have : m = .multiplicative := by
      rcases hmeth with hr | ⟨hr, hv⟩
      · rw [hr] at hm; cases hm; rfl
      · rw [hr, hv] at hm; cases hm; rfl
    subst this
    have e1 := (resolve_of hres).1 hb
    have e2 := resolve_gradient hres hv
    simp only [column, e1, e2, monthly_read hmon hg, number]
    refine ⟨_, rfl, by simp [hlen], fun t x mo hx hmo => ?_⟩
    rw [zip_months _ _ _ _ _ _ _ hx hmo]
    congr 1
    simp only [Rule.value]
    ring
  | threshold r g g2 limit =>
    obtain ⟨hmeth, ⟨b, hb⟩, ⟨v, hv, hg⟩, ⟨v2, hv2, hg2⟩, ⟨b3, hb3⟩⟩ := hr
    have : m = .threshold := by
      rw [hmeth] at hm; cases hm; rfl
    subst this
    have e1 := (resolve_of hres).1 hb
    have e2 := resolve_gradient hres hv
    have e3 := (resolve_of hres).2.1 hv2
    have e4 := (resolve_of hres).2.2 hb3
    have s1 := spread_read raw.length hg
    have s2 := spread_read raw.length hg2
    by_cases h1 : z < limit
    · refine ⟨raw.map fun x => x * (1 + g * (z - r) / 100), ?_, by simp, fun t x mo hx hmo => ?_⟩
      · simp only [column, e1, e2, e4, number]
        show (if z < limit then _ else _) = _
        rw [if_pos h1, s1]
        exact congrArg _ (zip_rep _ raw _ rfl g)
      · rw [List.getElem?_map, hx]
        simp only [Rule.value, if_pos h1, Option.map_some]
        congr 1
        ring
    · by_cases h2 : limit < r
      · refine ⟨raw.map fun x => x * (1 + g2 * (z - r) / 100), ?_, by simp, fun t x mo hx hmo => ?_⟩
        · simp only [column, e1, e3, e4, number]
          show (if z < limit then _ else if r > limit then _ else _) = _
          rw [if_neg h1, if_pos h2, s2]
          exact congrArg _ (zip_rep _ raw _ rfl g2)
        · rw [List.getElem?_map, hx]
          simp only [Rule.value, if_neg h1, if_pos h2, Option.map_some]
          congr 1
          ring
      · refine ⟨raw.map fun x => x * (1 + g * (limit - r) / 100) * (1 + g2 * (z - limit) / 100), ?_, by simp,
          fun t x mo hx hmo => ?_⟩
        · simp only [column, e1, e2, e3, e4, number]
          show (if z < limit then _ else if r > limit then _ else _) = _
          rw [if_neg h1, if_neg h2, s1, s2]
          refine congrArg Except.ok ?_
          rw [zip_rep _ raw _ rfl g, zip_rep _ _ _ (by simp) g2, List.map_map]
          rfl
        · rw [List.getElem?_map, hx]
          simp only [Rule.value, if_neg h1, if_neg h2, Option.map_some]
          congr 1
          ring

theorem clip_stored (v : Var) (x : K) : clip v x = stored v x := by
  unfold clip stored
  have key : (if x < 0 then 0 else x) = max x 0 := by
    split
    · next h => exact (max_eq_right h.le).symm
    · next h => exact (max_eq_left (not_lt.1 h)).symm
  cases v <;> simp [Var.canBeNegative, Signed, key]

end

end HB.ForcingOps
