import Verif.Spec.BaseStructure
import Verif.Props.Names
import Mathlib.Data.List.Nodup
import Mathlib.Data.List.GetD

/-! # Lemmas on writing structures: what each call does to the structure. -/

set_option linter.unusedSectionVars false
set_option linter.unusedSimpArgs false

namespace HB.Wire

open HB.Names

/-- The call returns normally, leaving the structure `s`. -/
def Yields (r : Except Err Auth) (s : Struct) : Prop := ∃ a, r = .ok a ∧ a.str = s

theorem Yields.bind {r : Except Err Auth} {s s' : Struct} {f : Auth → Except Err Auth} (h : Yields r s)
    (hf : ∀ a, a.str = s → Yields (f a) s') : Yields (r >>= f) s' := by
  obtain ⟨a, rfl, ha⟩ := h
  exact hf a ha

theorem yields_ok {a : Auth} {s : Struct} (h : a.str = s) : Yields (.ok a) s := ⟨a, rfl, h⟩

/-- The structures met while generating. -/
def mk (w : Bool) (sp : String) (bs : List Brick) (cv sf : List ℕ) (so ro : List Out) : Struct where
  unitBricks := bs
  covers := cv
  surfaces := sf
  unitSplits :=
    if w then
      [⟨"snow_rain_transition", sp, [{ target := "rain_splitter" }, { target := "snow_splitter", content := .snow }]⟩,
       ⟨"snow_splitter", "multi_fluxes", so⟩, ⟨"rain_splitter", "multi_fluxes", ro⟩]
    else [⟨"rain", "rain", [{ target := "rain_splitter" }]⟩, ⟨"rain_splitter", "multi_fluxes", ro⟩]

theorem genPrecipitation_yields (w : Bool) (sp : String) :
    Yields (genPrecipitation w sp {}) (mk w sp [] [] [] [] []) := by
  cases w <;> exact ⟨_, rfl, rfl⟩

theorem modify_at {α : Type} (pre : List α) (b : α) (post : List α) (f : α → α) :
    (pre ++ b :: post).modify pre.length f = pre ++ f b :: post := by
  induction pre with
  | nil => rfl
  | cons x l ih => simpa [List.modify_succ_cons] using ih

theorem findIdx?_at {α : Type} (p : α → Bool) (pre : List α) (b : α) (post : List α) (h : ∀ x ∈ pre, p x = false)
    (hb : p b = true) : findIdx? p (pre ++ b :: post) = some pre.length := by
  induction pre with
  | nil => simp [findIdx?, hb]
  | cons x l ih =>
    simp only [List.cons_append, findIdx?, h x (by simp), Bool.false_eq_true, if_false]
    rw [ih fun y hy => h y (by simp [hy])]
    rfl

section
variable {w : Bool} {sp : String} {bs : List Brick} {cv sf : List ℕ} {so ro : List Out}

theorem selectRain {a : Auth} (h : a.str = mk w sp bs cv sf so ro) :
    selectSplitter? "rain_splitter" a = some { a with split := some (if w then 2 else 1) } := by
  unfold selectSplitter?
  rw [h]
  cases w <;> simp [mk, findIdx?]

theorem selectSnow {a : Auth} (h : a.str = mk true sp bs cv sf so ro) :
    selectSplitter? "snow_splitter" a = some { a with split := some 1 } := by
  unfold selectSplitter?
  rw [h]
  simp [mk, findIdx?]

theorem addRain {a : Auth} (h : a.str = mk w sp bs cv sf so ro) (hs : a.split = some (if w then 2 else 1)) (t : String)
    (c : Content) : addSplitterOutput t c a =
      .ok { a with str := mk w sp bs cv sf so (ro ++ [{ target := t, content := c }]) } := by
  unfold addSplitterOutput
  rw [hs]
  dsimp only
  rw [h]
  cases w <;> rfl

theorem addSnow {a : Auth} (h : a.str = mk true sp bs cv sf so ro) (hs : a.split = some 1) (t : String)
    (c : Content) : addSplitterOutput t c a =
      .ok { a with str := mk true sp bs cv sf (so ++ [{ target := t, content := c }]) ro } := by
  unfold addSplitterOutput
  rw [hs]
  dsimp only
  rw [h]
  rfl

theorem redirectRain {a : Auth} (h : a.str = mk w sp bs cv sf so ro) (hs : a.split = some (if w then 2 else 1))
    (cur new : String) : changeTargetIfFound cur new a =
      .ok { a with str := mk w sp bs cv sf so (redirect cur new ro) } := by
  unfold changeTargetIfFound
  rw [hs]
  dsimp only
  rw [h]
  cases w <;> rfl

theorem redirectRain' {a : Auth} (h : a.str = mk w sp bs cv sf so ro) (hs : a.split = some (if w then 2 else 1))
    (cur new : String) (hf : ro.any (fun o => o.target = cur) = true) : changeTarget cur new a =
      .ok { a with str := mk w sp bs cv sf so (redirect cur new ro) } := by
  unfold changeTarget
  rw [hs]
  dsimp only
  have : a.str.unitSplits[if w then 2 else 1]? = some ⟨"rain_splitter", "multi_fluxes", ro⟩ := by
    rw [h]; cases w <;> rfl
  rw [this]
  dsimp only
  rw [if_pos hf, redirectRain h hs, hs]

end

theorem redirect_at (cur new : String) (pre : List Out) (o : Out) (post : List Out) (h : ∀ x ∈ pre, x.target ≠ cur)
    (ho : o.target = cur) : redirect cur new (pre ++ o :: post) = pre ++ { o with target := new } :: post := by
  induction pre with
  | nil => simp [redirect, ho]
  | cons x l ih => simp [redirect, h x (by simp), ih fun y hy => h y (by simp [hy])]

theorem redirect_none (cur new : String) (l : List Out) (h : ∀ x ∈ l, x.target ≠ cur) : redirect cur new l = l := by
  induction l with
  | nil => rfl
  | cons x l ih => simp [redirect, h x (by simp), ih fun y hy => h y (by simp [hy])]

/-- The outputs a target given with the process makes. -/
def outsOf (t : String) : List Out := if t = "" then [] else [{ target := (parseTarget t).1, content := (parseTarget t).2 }]

theorem register_ok {t : String} (h : Spec.IsProcess t) : ∃ p, registerSettings t = .ok p := by
  obtain ⟨pc, hp⟩ := h
  exact ⟨pc, ((c52_processes t).2.2.1 pc).2 hp⟩

theorem register_bad {t : String} (h : ¬ Spec.IsProcess t) : registerSettings t = .error :=
  (c52_processes t).2.2.2.2 fun p hp => h ⟨p, hp⟩

/-- Appending the brick selects it. -/
theorem addSurface_eq (name type : String) (a : Auth) : addSurface name type a =
    { a with str := { a.str with unitBricks := a.str.unitBricks ++ [{ name := name, type := type }],
                                 surfaces := a.str.surfaces ++ [a.str.unitBricks.length] },
             brick := some a.str.unitBricks.length } := rfl

theorem modBrick_at {a : Auth} {pre : List Brick} {b : Brick} {post : List Brick} (f : Brick → Brick)
    (hb : a.brick = some pre.length) (hs : a.str.unitBricks = pre ++ b :: post) :
    modBrick f a = .ok { a with str := { a.str with unitBricks := pre ++ f b :: post } } := by
  unfold modBrick
  rw [hb]
  dsimp only
  rw [hs, modify_at]

theorem getElem?_at {α : Type} (pre : List α) (b : α) (post : List α) : (pre ++ b :: post)[pre.length]? = some b := by
  simp

theorem modProc_at {a : Auth} {pre : List Brick} {b : Brick} {post : List Brick} {ps : List Proc} {p : Proc} (f : Proc → Proc)
    (hb : a.brick = some pre.length) (hs : a.str.unitBricks = pre ++ b :: post) (hp : a.proc = some ps.length)
    (hl : b.procs = ps ++ [p]) :
    modProc f a = .ok { a with str := { a.str with unitBricks := pre ++ { b with procs := ps ++ [f p] } :: post } } := by
  unfold modProc
  rw [hp]
  dsimp only
  rw [modBrick_at _ hb hs, hl, modify_at, hp]

theorem addProcess_at {a : Auth} {pre : List Brick} {b : Brick} {post : List Brick} {name type target : String}
    (hb : a.brick = some pre.length) (hs : a.str.unitBricks = pre ++ b :: post) (ht : Spec.IsProcess type) :
    addProcess name type target a = .ok { a with
      str := { a.str with unitBricks := pre ++ { b with procs := b.procs ++ [⟨name, type, outsOf target⟩] } :: post },
      proc := some b.procs.length } := by
  obtain ⟨pc, hr⟩ := register_ok ht
  unfold addProcess
  rw [hb]
  dsimp only
  rw [hs, getElem?_at]
  dsimp only
  rw [modBrick_at _ hb hs]
  dsimp only [bind, Except.bind]
  rw [hr]
  unfold outsOf
  by_cases h : target = ""
  · simp only [h, if_true]
    rw [hb]
  · simp only [h, if_false]
    unfold addProcessOutput
    rw [modProc_at (pre := pre) (b := { b with procs := b.procs ++ [⟨name, type, []⟩] }) (post := post) (ps := b.procs)
      (p := ⟨name, type, []⟩) _ (by simp [hb]) rfl rfl rfl]
    simp [hb]

theorem addProcess_bad {a : Auth} {pre : List Brick} {b : Brick} {post : List Brick} {name type target : String}
    (hb : a.brick = some pre.length) (hs : a.str.unitBricks = pre ++ b :: post) (ht : ¬ Spec.IsProcess type) :
    addProcess name type target a = .error .thrown := by
  have hr := register_bad ht
  unfold addProcess
  rw [hb]
  dsimp only
  rw [hs, getElem?_at]
  dsimp only
  rw [modBrick_at _ hb hs]
  dsimp only [bind, Except.bind]
  rw [hr]
  by_cases h : target = ""
  · simp only [h, if_true]
  · simp only [h, if_false]
    unfold addProcessOutput
    rw [modProc_at (pre := pre) (b := { b with procs := b.procs ++ [⟨name, type, []⟩] }) (post := post) (ps := b.procs)
      (p := ⟨name, type, []⟩) _ (by simp [hb]) rfl rfl rfl]

theorem parse_plain {t : String} (h : ':' ∉ t.toList) : parseTarget t = (t, .water) := by
  unfold parseTarget; simp [h]

theorem outsOf_plain {t : String} (h0 : t ≠ "") (h : ':' ∉ t.toList) : outsOf t = [{ target := t }] := by
  unfold outsOf; rw [if_neg h0, parse_plain h]

theorem outsOf_empty : outsOf "" = [] := rfl

theorem parse_content {t k : String} (h : ':' ∉ t.toList) : parseTarget (t ++ ":" ++ k) = (t, contentOf k) := by
  have e : (t ++ ":" ++ k).toList = t.toList ++ ':' :: k.toList := by simp [String.toList_append]
  have hp : ∀ l : List Char, ':' ∉ l → (l ++ ':' :: k.toList).takeWhile (· ≠ ':') = l ∧
      (l ++ ':' :: k.toList).dropWhile (· ≠ ':') = ':' :: k.toList := by
    intro l
    induction l with
    | nil => simp
    | cons x l ih =>
      intro hl
      have hx : x ≠ ':' := fun he => hl (by simp [he])
      obtain ⟨h1, h2⟩ := ih fun hm => hl (by simp [hm])
      simp only [List.cons_append]
      rw [List.takeWhile_cons, List.dropWhile_cons]
      simp only [decide_eq_true hx, if_true]
      exact ⟨by rw [h1], h2⟩
  unfold parseTarget
  simp only [e]
  rw [if_pos (by simp), (hp _ h).1, (hp _ h).2]
  simp

theorem append_ne {t k : String} (hk : k ≠ "") : t ++ k ≠ "" := by
  intro h
  have := congrArg String.toList h
  simp only [String.toList_append, String.toList_empty, List.append_eq_nil_iff] at this
  exact hk (String.toList_inj.mp (by simpa using this.2))

theorem outsOf_content {t k : String} (h : ':' ∉ t.toList) : outsOf (t ++ ":" ++ k) = [{ target := t, content := contentOf k }] := by
  have h0 : t ++ ":" ++ k ≠ "" := by
    intro he
    have := congrArg String.toList he
    simp [String.toList_append] at this
  unfold outsOf
  rw [if_neg h0, parse_content h]

theorem colon_append {t k : String} (h : ':' ∉ t.toList) (hk : ':' ∉ k.toList) : ':' ∉ (t ++ k).toList := by
  simp [String.toList_append, h, hk]

theorem selectBrick_at {a : Auth} {pre : List Brick} {b : Brick} {post : List Brick}
    (hs : a.str.unitBricks = pre ++ b :: post) (h : ∀ x ∈ pre, x.name ≠ b.name) :
    selectBrick b.name a = .ok { a with brick := some pre.length, proc := none } := by
  unfold selectBrick
  rw [hs, findIdx?_at _ _ _ _ (fun x hx => by simpa using h x hx) (by simp)]

/-- Rule for a loop over the land covers. -/
theorem overCovers_rule (cs : List Cover) (P : List Cover → Struct) (f : Brick → Auth → Except Err Auth)
    (hcov : ∀ done, (P done).covers = List.range cs.length)
    (hbr : ∀ done, ∃ rest, (P done).unitBricks = cs.map Spec.coverBrick ++ rest)
    (hstep : ∀ done c todo, cs = done ++ c :: todo → ∀ a, a.str = P done → Yields (f (Spec.coverBrick c) a) (P (done ++ [c])))
    {a : Auth} (ha : a.str = P []) : Yields (overCovers f a) (P cs) := by
  have key : ∀ todo done, cs = done ++ todo → ∀ a : Auth, a.str = P done →
      Yields ((List.range' done.length todo.length).foldlM (fun a i => withCover i a fun b => f b a) a) (P cs) := by
    intro todo
    induction todo with
    | nil =>
      intro done hd a ha
      rw [List.append_nil] at hd
      exact ⟨a, rfl, by rw [ha, ← hd]⟩
    | cons c todo ih =>
      intro done hd a ha
      rw [List.length_cons, List.range'_succ, List.foldlM_cons]
      refine Yields.bind (s := P (done ++ [c])) ?_ ?_
      · unfold withCover
        obtain ⟨rest, hr⟩ := hbr done
        have : a.str.unitBricks[done.length]? = some (Spec.coverBrick c) := by
          rw [ha, hr, List.getElem?_append_left (by simp [hd]), hd]
          simp
        rw [this]
        exact hstep done c todo hd a ha
      · intro b hb
        have := ih (done ++ [c]) (by simp [hd]) b hb
        simpa using this
  unfold overCovers
  rw [ha, hcov, List.range_eq_range']
  exact key cs [] rfl a ha

end HB.Wire
