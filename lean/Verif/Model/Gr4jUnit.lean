import Verif.Model.DirectStep
import Verif.Model.Laws
import Verif.Model.LawLemmas

/-!
# A day of a GR4J unit

The direct phase of one unit of the discrete GR4J and GR6J models (models/gr4j.py:108-199, models/gr6j.py:93-101), worked out: ground with
interception and throughfall, production store with production and evapotranspiration, unit hydrograph input with the routing.
The unit is given by the numbers of its fluxes, containers, processes and splitters; `Props/Gr4jRun.lean` shows that built models
have such units.
-/

set_option linter.unusedSectionVars false

namespace HB

noncomputable section

/-- Amounts up to 1e-8 are not moved or kept (Process.cpp:502, WaterContainer.cpp:202). -/
def cut (x : ℝ) : ℝ := if prec < x then x else 0

theorem cut_nonneg (x : ℝ) : 0 ≤ cut x := by
  unfold cut
  split
  · exact (lt_trans prec_pos ‹_›).le
  · exact le_refl 0

theorem cut_le {x : ℝ} (h : 0 ≤ x) : cut x ≤ x := by unfold cut; split <;> [exact le_refl _; exact h]

theorem cut_of_gt {x : ℝ} (h : prec < x) : cut x = x := if_pos h

theorem cut_of_le {x : ℝ} (h : x ≤ prec) : cut x = 0 := if_neg (not_lt.2 h)

theorem cut_gap {x : ℝ} : x - cut x ≤ prec := by
  unfold cut
  split
  · rw [sub_self]; exact prec_nonneg
  · linarith [not_lt.1 ‹_›]

/-! ## Moving water through one flux -/

section
variable {net : Net ℝ}

theorem applyChange_moves {src f : ℕ} {r : ℝ} (h0 : 0 ≤ r) (ph : Phys ℝ) :
    applyChange net 1 src f r ph = { updateFlux net ph f (cut r) with
      cont := upd (updateFlux net ph f (cut r)).cont src (((updateFlux net ph f (cut r)).cont src).subDyn (cut r)) } := by
  unfold applyChange
  rw [if_neg (not_lt.2 h0)]
  unfold greaterThan cut
  rw [zero_add]
  by_cases h : prec < r
  · rw [if_pos (by simpa using h), if_pos h, mul_one]
  · rw [if_neg (by simpa using h), if_neg h]
    have : ∀ g : ℕ → Cont ℝ, upd g src ((g src).subDyn 0) = g := by
      intro g
      funext c
      unfold upd
      split
      · rename_i hc
        subst hc
        unfold Cont.subDyn
        split <;> simp
      · rfl
    rw [this]

/-- Through a flux that is not instantaneous: the source loses the water, the flux records it. -/
theorem applyChange_plain {src f : ℕ} {r : ℝ} (h0 : 0 ≤ r) (ph : Phys ℝ) (hi : (net.flux f).inst = false) :
    ((applyChange net 1 src f r ph).cont src = (ph.cont src).subDyn (cut r)) ∧
    (∀ c, c ≠ src → (applyChange net 1 src f r ph).cont c = ph.cont c) ∧
    (applyChange net 1 src f r ph).amt f = (net.flux f).scale (cut r) ∧
    (∀ g, g ≠ f → (applyChange net 1 src f r ph).amt g = ph.amt g) := by
  rw [applyChange_moves h0]
  have hu : updateFlux net ph f (cut r) = { ph with amt := upd ph.amt f ((net.flux f).scale (cut r)) } := by
    unfold updateFlux
    simp only [hi, Bool.false_eq_true, if_false]
  rw [hu]
  refine ⟨upd_same' _ _ _, fun c hc => upd_ne' _ _ hc, upd_same' _ _ _, fun g hg => upd_ne' _ _ hg⟩

/-- Through an instantaneous flux: the target has it at once. -/
theorem applyChange_inst {src f t : ℕ} {r : ℝ} (h0 : 0 ≤ r) (ph : Phys ℝ) (hi : (net.flux f).inst = true)
    (ht : (net.flux f).target = .cont t) (hf : (net.flux f).frac = 1) (hne : t ≠ src) :
    ((applyChange net 1 src f r ph).cont src = (ph.cont src).subDyn (cut r)) ∧
    (applyChange net 1 src f r ph).cont t = (ph.cont t).addStat (cut r) ∧
    (∀ c, c ≠ src → c ≠ t → (applyChange net 1 src f r ph).cont c = ph.cont c) ∧
    (applyChange net 1 src f r ph).amt f = cut r ∧
    (∀ g, g ≠ f → (applyChange net 1 src f r ph).amt g = ph.amt g) := by
  rw [applyChange_moves h0]
  have hs : (net.flux f).scale (cut r) = cut r := by simp [FluxSpec.scale, hi, hf]
  have hu : updateFlux net ph f (cut r) =
      { ph with amt := upd ph.amt f (cut r), cont := upd ph.cont t ((ph.cont t).addStat (cut r)) } := by
    unfold updateFlux
    simp only [hi, hs, ht, if_true]
  rw [hu]
  refine ⟨?_, ?_, ?_, upd_same' _ _ _, fun g hg => upd_ne' _ _ hg⟩
  · dsimp only
    rw [upd_same', upd_ne' _ _ hne.symm]
  · dsimp only
    rw [upd_ne' _ _ hne, upd_same']
  · intro c h1 h2
    dsimp only
    rw [upd_ne' _ _ h1, upd_ne' _ _ h2]

end

/-- A container with nothing pending. -/
def still (content init : ℝ) (cap : Option ℝ) : Cont ℝ := ⟨content, 0, 0, init, cap, false, false⟩

/-- `Finalize` of a container: small amounts disappear, negative ones too. -/
theorem finalize_cut {c : Cont ℝ} (h1 : c.infinite = false) (h2 : c.allowNeg = false) :
    c.finalize = still (cut (c.content + (c.dyn + c.stat))) c.init c.cap := by
  obtain ⟨ct, dy, st, i, cap, inf, neg⟩ := c
  dsimp only at h1 h2
  subst h1 h2
  unfold Cont.finalize still cut nearlyZero lessThan
  simp only [Bool.false_eq_true, if_false, decide_eq_true_eq, zero_sub]
  set t := ct + (dy + st)
  by_cases h : prec < t
  · rw [if_neg (by rw [abs_of_pos (lt_trans prec_pos h)]; exact not_le.2 h), if_neg (by have := @prec_pos ℝ _ _ _; linarith), if_pos h]
  · rw [if_neg h]
    split
    · rfl
    · rename_i h3
      rw [if_pos]
      rw [not_le, lt_abs] at h3
      rcases h3 with h3 | h3
      · exact absurd h3 h
      · linarith

/-- `Finalize` of a container that may be negative. -/
theorem finalize_neg {c : Cont ℝ} (h1 : c.infinite = false) (h2 : c.allowNeg = true) :
    c.finalize = ⟨c.content + (c.dyn + c.stat), 0, 0, c.init, c.cap, false, true⟩ := by
  obtain ⟨ct, dy, st, i, cap, inf, neg⟩ := c
  dsimp only at h1 h2
  subst h1 h2
  rfl

theorem limited_min {A r : ℝ} (hA : prec < A) : limited A r = min r A := by
  unfold limited
  by_cases h : A - r < 0
  · rw [if_pos h, if_neg, if_neg, min_eq_right (by linarith)]
    · simp only [nearlyEqual, sub_zero, decide_eq_true_eq, not_le]
      rw [abs_of_pos (lt_trans prec_pos hA)]
      exact hA
    · simp only [nearlyZero, decide_eq_true_eq, not_le]
      have := @epsD_lt_prec ℝ _ _ _
      have h0 : 0 < r := by linarith [@prec_pos ℝ _ _ _]
      rw [abs_of_pos h0]
      linarith
  · rw [if_neg h, min_eq_left (by linarith)]

theorem limited_self {A r : ℝ} (h : r ≤ A) : limited A r = r := if_neg (by linarith)

/-! ## The unit -/

/-- The numbers of the fluxes, containers, processes and splitters of a unit: rain to the distributor, rain to the ground, interception,
throughfall, production, evapotranspiration, discharge; ground, production store, unit hydrograph input; the processes; the splitters. -/
structure GrIds where
  fr : ℕ
  fg : ℕ
  fi : ℕ
  ft : ℕ
  fp : ℕ
  fe : ℕ
  fq : ℕ
  cg : ℕ
  cs : ℕ
  cr : ℕ
  pi : ℕ
  pt : ℕ
  pp : ℕ
  pe : ℕ
  pq : ℕ
  s0 : ℕ
  s1 : ℕ

namespace GrIds

variable (L : GrIds)

def fluxes : List ℕ := [L.fr, L.fg, L.fi, L.ft, L.fp, L.fe, L.fq]
def conts : List ℕ := [L.cg, L.cs, L.cr]
def ground : Brick := ⟨[(L.cg, false)], [⟨L.pi, L.cg, [L.fi]⟩, ⟨L.pt, L.cg, [L.ft]⟩], false⟩
def store : Brick := ⟨[(L.cs, false)], [⟨L.pp, L.cs, [L.fp]⟩, ⟨L.pe, L.cs, [L.fe]⟩], false⟩
def uh : Brick := ⟨[(L.cr, false)], [⟨L.pq, L.cr, [L.fq]⟩], false⟩

/-- The unit in the direct phase. -/
def unit : HUnit := ⟨[(L.s0, [L.fr]), (L.s1, [L.fg])], [L.ground, L.store, L.uh]⟩

end GrIds

/-- The fluxes are wired as in GR4J. -/
structure GrLay (net : Net ℝ) (L : GrIds) : Prop where
  nodup : L.fluxes.Nodup
  cnodup : L.conts.Nodup
  fr : (net.flux L.fr).inst = false ∧ (net.flux L.fr).frac = 1
  fg : (net.flux L.fg).inst = false ∧ (net.flux L.fg).frac = 1 ∧ (net.flux L.fg).static = true
  fi : (net.flux L.fi).inst = false
  ft : (net.flux L.ft).inst = true ∧ (net.flux L.ft).frac = 1 ∧ (net.flux L.ft).target = .cont L.cs
  fp : (net.flux L.fp).inst = false ∧ (net.flux L.fp).frac = 1 ∧ (net.flux L.fp).static = false
  fe : (net.flux L.fe).inst = false
  fq : (net.flux L.fq).inst = false
  inG : net.inputs L.cg = [L.fg]
  inS : net.inputs L.cs = [L.ft]
  inR : net.inputs L.cr = [L.fp]
  ovfG : net.ovf L.cg = none
  ovfS : net.ovf L.cs = none
  ovfR : net.ovf L.cr = none

/-- What a routing computes from its state and the water reaching the unit hydrographs: the discharge it asks for, the groundwater
exchange it puts in its container, its next state.  `neg`: the routing lets its container go negative and discharges also when the
container is empty (ProcessRoutingGR6J.cpp:24-28, 91-96). -/
structure Router (R : Type) where
  neg : Bool
  want : R → ℝ → ℝ
  exch : R → ℝ → ℝ
  next : R → ℝ → R

/-- `GetChangeRates` of the routing process: Process.cpp:480-487, or without the check for an empty container
(ProcessRoutingGR6J.cpp:91-96). -/
def Router.rate {R : Type} (rt : Router R) (c : Cont ℝ) (x : ℝ) : ℝ := if rt.neg then x else changeRate c x

/-- What the processes remember: the time step, the demand published by the interception for each unit (Forcing.cpp:18-21), the states of
the routings. -/
structure GrHid (R : Type) where
  time : ℕ
  pet : ℕ → Option ℝ
  st : ℕ → R

variable {R : Type}

/-- `Forcing::GetValue` (Forcing.cpp:12-16) for the potential evapotranspiration of a unit. -/
def GrHid.demand (h : GrHid R) (E : ℕ → ℝ) (u : ℕ) : ℝ := (h.pet u).getD (E h.time)

/-- The laws of the processes and splitters of unit `u`. -/
structure GrWorks (net : Net ℝ) (laws : Laws ℝ (GrHid R)) (rt : Router R) (L : GrIds) (u : ℕ) (P E : ℕ → ℝ) : Prop where
  s0 : ∀ h ph, (laws.split L.s0 h ph).1 L.fr = P h.time ∧ (laws.split L.s0 h ph).2 = h
  s1 : ∀ h ph, (laws.split L.s1 h ph).1 L.fg = ph.amt L.fr ∧ (laws.split L.s1 h ph).2 = h
  pi : ∀ h ph, laws.rates L.pi h ph = (fun _ => (interception (h.demand E u) (ph.cont L.cg)).1, 0,
    match (interception (h.demand E u) (ph.cont L.cg)).2 with
    | some v => { h with pet := upd h.pet u (some v) }
    | none => h)
  pt : ∀ h ph, laws.rates L.pt h ph = (fun _ => changeRate (ph.cont L.cg) (outflowRest false [] (ph.cont L.cg)), 0, h)
  pp : ∀ h ph, laws.rates L.pp h ph = (fun _ => changeRate (ph.cont L.cs) ((productionRate (h.demand E u) (ph.cont L.cs)).getD 0), 0, h)
  pe : ∀ h ph, laws.rates L.pe h ph = (fun _ => changeRate (ph.cont L.cs) ((etRate 1 (h.demand E u) (ph.cont L.cs) .gr4j).getD 0), 0, h)
  pq : ∀ h ph, laws.rates L.pq h ph =
    (fun _ => rt.rate (ph.cont L.cr) (rt.want (h.st u) (sumIncoming net ph L.cr)),
      rt.rate (ph.cont L.cr) (rt.exch (h.st u) (sumIncoming net ph L.cr)), h)
  fi : ∀ h ph, laws.fin L.pi h ph = h
  ft : ∀ h ph, laws.fin L.pt h ph = h
  fp : ∀ h ph, laws.fin L.pp h ph = h
  fe : ∀ h ph, laws.fin L.pe h ph = h
  fq : ∀ h ph, laws.fin L.pq h ph = { h with st := upd h.st u (rt.next (h.st u) (sumIncoming net ph L.cr)) }

/-! ## The ground -/

/-- Evaporated from the interception. -/
def grEi (P E : ℝ) : ℝ := cut (min P E)

/-- Net rain. -/
def grPn (P E : ℝ) : ℝ := cut (P - grEi P E)

/-- Demand left. -/
def grEn (P E : ℝ) : ℝ := if P ≤ prec then E else max 0 (E - P)

theorem grEi_bounds {P E : ℝ} (hP : 0 ≤ P) (hE : 0 ≤ E) : 0 ≤ grEi P E ∧ grEi P E ≤ P :=
  ⟨cut_nonneg _, le_trans (cut_le (le_min hP hE)) (min_le_left _ _)⟩

section
variable {net : Net ℝ} {laws : Laws ℝ (GrHid R)} {rt : Router R} {L : GrIds} {u : ℕ} {P E : ℕ → ℝ}

theorem sumIncoming_one {c f : ℕ} (h : net.inputs c = [f]) (ph : Phys ℝ) : sumIncoming net ph c = getAmount net ph f := by
  unfold sumIncoming
  rw [h]
  simp

/-- A brick with one water container and its processes, computed directly. -/
theorem finBrick_one (laws : Laws ℝ (GrHid R)) (b : Brick) {c : ℕ} (hb : b.conts = [(c, false)]) (s : Sys ℝ (GrHid R)) :
    (finBrick laws b s).ph = finCont s.ph c ∧ (finBrick laws b s).rate = s.rate ∧
    (finBrick laws b s).hid = b.procs.foldl (fun h p => laws.fin p.pid h (finCont s.ph c)) s.hid := by
  unfold finBrick
  rw [hb]
  exact ⟨rfl, rfl, rfl⟩

theorem injCont_none (ph : Phys ℝ) (c : ℕ) : injCont ph c 0 = { ph with exch := (injCont ph c 0).exch } := by
  unfold injCont
  have : upd ph.cont c ((ph.cont c).addStat 0) = ph.cont := by
    funext d
    unfold upd
    split
    · rename_i h; subst h; unfold Cont.addStat; split <;> simp
    · rfl
  simp only [this]

/-- The ground passes the net rain to the production store and publishes the demand left. -/
theorem ground_step (hl : GrLay net L) (hw : GrWorks net laws rt L u P E) (s : Sys ℝ (GrHid R)) {p e ig : ℝ}
    (hc : s.ph.cont L.cg = still 0 ig none) (hp : s.ph.amt L.fg = p) (he : s.hid.demand E u = e) (hp0 : 0 ≤ p) (hpM : p ≤ 10000) (he0 : 0 ≤ e) :
    ∃ s', directBrick net laws 1 s L.ground = .ok s' ∧ s'.ph.cont L.cg = still 0 ig none ∧
      s'.ph.cont L.cs = (s.ph.cont L.cs).addStat (grPn p e) ∧ (∀ c, c ≠ L.cg → c ≠ L.cs → s'.ph.cont c = s.ph.cont c) ∧
      s'.ph.amt L.ft = grPn p e ∧ (∀ f, f ≠ L.fi → f ≠ L.ft → s'.ph.amt f = s.ph.amt f) ∧
      s'.hid.demand E u = grEn p e ∧ s'.hid.time = s.hid.time ∧ s'.hid.st = s.hid.st ∧ (∀ v, v ≠ u → s'.hid.pet v = s.hid.pet v) := by
  have hn := hl.nodup
  simp only [GrIds.fluxes, List.nodup_cons, List.mem_cons, List.not_mem_nil, or_false, not_or] at hn
  have hcn := hl.cnodup
  simp only [GrIds.conts, List.nodup_cons, List.mem_cons, List.not_mem_nil, or_false, not_or] at hcn
  have houts : L.ground.outsOf L.cg = [L.fi, L.ft] := by simp [GrIds.ground, Brick.outsOf]
  obtain ⟨b1, b2⟩ := grEi_bounds hp0 he0
  -- after reading the inputs
  set ph1 := readInputs net L.ground s.ph with hph1
  have hph1' : ph1 = { s.ph with cont := upd s.ph.cont L.cg ⟨0, p, 0, ig, none, false, false⟩ } := by
    rw [hph1]
    unfold readInputs GrIds.ground
    simp only [List.foldl_cons, List.foldl_nil, readCont, sumIncoming_one hl.inG, getAmount, hl.fg.1, Bool.false_eq_true, if_false, hp, hc, still,
      Cont.addDyn, zero_add]
  have hg1 : ph1.cont L.cg = ⟨0, p, 0, ig, none, false, false⟩ := by rw [hph1']; exact upd_same' _ _ _
  set s1 : Sys ℝ (GrHid R) := ⟨ph1, L.ground.outs.foldl (fun q f => upd q f (some 0)) s.rate, s.hid⟩ with hs1
  have hr1 : ∀ g ∈ L.ground.outsOf L.cg, s1.rate g = some 0 := by
    intro g hg
    rw [houts] at hg
    simp only [hs1, Brick.outs, GrIds.ground, List.flatMap_cons, List.flatMap_nil, List.append_nil, List.singleton_append, List.foldl_cons,
      List.foldl_nil]
    simp only [List.mem_cons, List.not_mem_nil, or_false] at hg
    rcases hg with rfl | rfl
    · unfold upd; split <;> simp
    · exact upd_same' _ _ _
  have hamt1 : ∀ f, s1.ph.amt f = s.ph.amt f := by intro f; rw [hs1]; dsimp only; rw [hph1']
  have hlvl : (ph1.cont L.cg).lvl = p := by rw [hg1]; simp [Cont.lvl]
  -- interception
  set rE := (interception e (ph1.cont L.cg)).1 with hrE
  have hrE' : 0 ≤ rE ∧ rE ≤ p ∧ cut rE = grEi p e := by
    rw [hrE]
    unfold interception lessThanOrEqual
    rw [hlvl, zero_add]
    by_cases h : p ≤ prec
    · rw [if_pos (by simpa using h)]
      refine ⟨le_refl _, hp0, ?_⟩
      rw [cut_of_le prec_nonneg, grEi, cut_of_le (le_trans (min_le_left _ _) h)]
    · rw [if_neg (by simpa using h)]
      exact ⟨le_min hp0 he0, min_le_left _ _, rfl⟩
  have hflow : ∀ s2 : Sys ℝ (GrHid R), s2.ph.amt L.fg = p → inflowOf net s2 L.fg = .amount p := by
    intro s2 h2
    unfold inflowOf
    rw [if_neg (by rw [hl.fg.1]; simp), if_pos hl.fg.2.2, h2]
  set h1 : GrHid R := match (interception e (ph1.cont L.cg)).2 with
    | some v => { s.hid with pet := upd s.hid.pet u (some v) }
    | none => s.hid with hh1
  obtain ⟨s2, e2, p2, hid2, z2, -⟩ := directProc_single (net := net) (laws := laws) (b := L.ground) (s := s1) (p := ⟨L.pi, L.cg, [L.fi]⟩)
    (f := L.fi) (fin := L.fg) (rr := fun _ => rE) (x := 0) (h' := h1) (by
      change laws.rates L.pi s.hid ph1 = _
      rw [hw.pi, he]) rfl
    (by change (ph1.cont L.cg).infinite = false; rw [hg1]) (by change (ph1.cont L.cg).allowNeg = false; rw [hg1])
    (by rw [houts]; simp) (by rw [houts]; simp [hn]) hr1 hl.inG
    (by
      rw [houts]
      simp only [List.mem_cons, List.not_mem_nil, or_false, not_or]
      exact ⟨hn.2.1.1, hn.2.1.2.1⟩) hl.ovfG
    (by rw [hflow s1 (by rw [hamt1, hp])]; rfl) hrE'.1 (le_trans hrE'.2.1 hpM)
    (by
      intro cap hcap
      change (ph1.cont L.cg).cap = some cap at hcap
      rw [hg1] at hcap
      exact absurd hcap (by simp))
  have hA2 : limited ((s1.ph.cont L.cg).content + (s1.ph.cont L.cg).dyn + (inflowOf net s1 L.fg).clip.staticOf) rE = rE := by
    rw [hflow s1 (by rw [hamt1, hp])]
    apply limited_self
    change rE ≤ (ph1.cont L.cg).content + (ph1.cont L.cg).dyn + p
    rw [hg1]
    dsimp only
    linarith [hrE'.2.1]
  have hinj := injCont_none s1.ph L.cg
  obtain ⟨m1, m2, m3, m4⟩ := applyChange_plain (net := net) (src := L.cg) (f := L.fi) hrE'.1 (injCont s1.ph L.cg 0) hl.fi
  rw [hA2] at p2
  dsimp only at p2
  rw [← p2] at m1 m2 m3 m4
  rw [hinj] at m1 m2 m4
  dsimp only at m1 m2 m4
  rw [hrE'.2.2] at m1
  have hg2 : s2.ph.cont L.cg = ⟨0, p - grEi p e, 0, ig, none, false, false⟩ := by
    rw [m1]
    change (ph1.cont L.cg).subDyn _ = _
    rw [hg1]
    simp [Cont.subDyn]
  -- throughfall
  have hlvl2 : (s2.ph.cont L.cg).lvl = p - grEi p e := by rw [hg2]; simp [Cont.lvl]
  set rT := changeRate (s2.ph.cont L.cg) (outflowRest false [] (s2.ph.cont L.cg)) with hrT
  have hrT' : 0 ≤ rT ∧ rT ≤ p - grEi p e ∧ cut rT = grPn p e := by
    rw [hrT]
    unfold changeRate lessThanOrEqual outflowRest
    rw [hlvl2, zero_add, hg2]
    simp only [Bool.not_false, Bool.true_and, Bool.false_eq_true, if_false, decide_eq_true_eq]
    by_cases h : p - grEi p e ≤ prec
    · rw [if_pos h]
      exact ⟨le_refl _, by linarith, by rw [cut_of_le prec_nonneg, grPn, cut_of_le h]⟩
    · rw [if_neg h, max_eq_left (by linarith)]
      exact ⟨by linarith, le_refl _, rfl⟩
  have hamt2 : s2.ph.amt L.fg = p := by
    rw [m4 _ hn.2.1.1, hamt1, hp]
  obtain ⟨s3, e3, p3, hid3, z3, -⟩ := directProc_single (net := net) (laws := laws) (b := L.ground) (s := s2) (p := ⟨L.pt, L.cg, [L.ft]⟩)
    (f := L.ft) (fin := L.fg) (rr := fun _ => rT) (x := 0) (h' := h1) (by
      change laws.rates L.pt s2.hid s2.ph = _
      rw [hw.pt, hid2]) rfl
    (by change (s2.ph.cont L.cg).infinite = false; rw [hg2]) (by change (s2.ph.cont L.cg).allowNeg = false; rw [hg2])
    (by rw [houts]; simp) (by rw [houts]; simp [hn]) z2 hl.inG
    (by
      rw [houts]
      simp only [List.mem_cons, List.not_mem_nil, or_false, not_or]
      exact ⟨hn.2.1.1, hn.2.1.2.1⟩) hl.ovfG
    (by rw [hflow s2 hamt2]; rfl) hrT'.1 (by linarith)
    (by
      intro cap hcap
      change (s2.ph.cont L.cg).cap = some cap at hcap
      rw [hg2] at hcap
      exact absurd hcap (by simp))
  have hA3 : limited ((s2.ph.cont L.cg).content + (s2.ph.cont L.cg).dyn + (inflowOf net s2 L.fg).clip.staticOf) rT = rT := by
    rw [hflow s2 hamt2]
    apply limited_self
    change rT ≤ (s2.ph.cont L.cg).content + (s2.ph.cont L.cg).dyn + p
    rw [hg2]
    dsimp only
    linarith [hrT'.2.1]
  have hinj3 := injCont_none s2.ph L.cg
  obtain ⟨n1, n2, n3, n4, n5⟩ := applyChange_inst (net := net) (src := L.cg) (f := L.ft) (t := L.cs) hrT'.1 (injCont s2.ph L.cg 0) hl.ft.1
    hl.ft.2.2 hl.ft.2.1 (Ne.symm hcn.1.1)
  rw [hA3] at p3
  dsimp only at p3
  rw [← p3] at n1 n2 n3 n4 n5
  rw [hinj3] at n1 n2 n3 n5
  dsimp only at n1 n2 n3 n5
  rw [hrT'.2.2] at n1 n2 n4
  have hg3 : s3.ph.cont L.cg = ⟨0, p - grEi p e - grPn p e, 0, ig, none, false, false⟩ := by
    rw [n1, hg2]
    simp [Cont.subDyn]
  -- end of the brick
  obtain ⟨q1, q2, q3⟩ := finBrick_one laws L.ground (c := L.cg) rfl s3
  have hstep : directBrick net laws 1 s L.ground = .ok (finBrick laws L.ground s3) := by
    unfold directBrick
    simp only [bind, Except.bind, pure, Except.pure]
    have : L.ground.procs.foldlM (directProc net laws 1 L.ground) s1 = .ok s3 := by
      change List.foldlM _ _ [_, _] = _
      simp only [List.foldlM_cons, List.foldlM_nil, bind, Except.bind, pure, Except.pure, e2, e3]
    rw [hs1] at this
    rw [this]
  refine ⟨_, hstep, ?_, ?_, ?_, ?_, ?_, ?_⟩
  · rw [q1]
    change upd _ _ _ _ = _
    rw [upd_same', finalize_cut (by rw [hg3]) (by rw [hg3]), hg3]
    have : cut (0 + (p - grEi p e - grPn p e + 0)) = 0 := by
      apply cut_of_le
      have := @cut_gap (p - grEi p e)
      rw [grPn]
      linarith
    dsimp only
    rw [this]
  · rw [q1]
    change upd _ _ _ _ = _
    rw [upd_ne' _ _ (Ne.symm hcn.1.1), n2, m2 _ (Ne.symm hcn.1.1)]
    change (ph1.cont L.cs).addStat _ = _
    rw [hph1']
    dsimp only
    rw [upd_ne' _ _ (Ne.symm hcn.1.1)]
  · intro c h1 h2
    rw [q1]
    change upd _ _ _ _ = _
    rw [upd_ne' _ _ h1, n3 _ h1 h2, m2 _ h1]
    change ph1.cont c = _
    rw [hph1']
    exact upd_ne' _ _ h1
  · rw [q1]
    exact n4
  · intro f h1 h2
    rw [q1]
    change s3.ph.amt f = _
    rw [n5 _ h2, m4 _ h1, hamt1]
  · have hh : (finBrick laws L.ground s3).hid = h1 := by
      rw [q3]
      change List.foldl _ _ [_, _] = _
      simp only [List.foldl_cons, List.foldl_nil, hw.fi, hw.ft]
      exact hid3
    rw [hh]
    have hcase : (p ≤ prec ∧ h1 = s.hid) ∨ (prec < p ∧ h1 = { s.hid with pet := upd s.hid.pet u (some (max 0 (e - p))) }) := by
      rw [hh1]
      unfold interception lessThanOrEqual
      rw [hlvl, zero_add]
      by_cases h : p ≤ prec
      · left; rw [if_pos (by simpa using h)]; exact ⟨h, rfl⟩
      · right; rw [if_neg (by simpa using h)]; exact ⟨not_le.1 h, rfl⟩
    rcases hcase with ⟨h2, h3⟩ | ⟨h2, h3⟩
    · rw [h3]
      exact ⟨by rw [he, grEn, if_pos h2], rfl, rfl, fun _ _ => rfl⟩
    · rw [h3]
      refine ⟨?_, rfl, rfl, fun v hv => upd_ne' _ _ hv⟩
      unfold GrHid.demand
      dsimp only
      rw [upd_same', grEn, if_neg (not_le.2 h2)]
      rfl


/-! ## The production store -/

/-- Water reaching the unit hydrographs, before small amounts are dropped, for the store level `S`. -/
def grRaw (X1 S Pn En : ℝ) : ℝ :=
  let Ps := gr4jInfiltration S Pn X1
  Pn - Ps + gr4jPercolation (S + Ps - gr4jEvaporation (S + Ps) En X1) X1

/-- Evapotranspiration asked for. -/
def grAsk (X1 S Pn En : ℝ) : ℝ := gr4jEvaporation (S + gr4jInfiltration S Pn X1) En X1

/-- Water reaching the unit hydrographs. -/
def grPR (X1 S Pn En : ℝ) : ℝ := cut (grRaw X1 S Pn En)

/-- Evapotranspiration. -/
def grEs (X1 S Pn En : ℝ) : ℝ := if S + Pn - grPR X1 S Pn En ≤ prec then 0 else cut (grAsk X1 S Pn En)

/-- Store level at the end of the day. -/
def grS (X1 S Pn En : ℝ) : ℝ := cut (S + Pn - grPR X1 S Pn En - grEs X1 S Pn En)

/-- Percolation of a nearly full store is not small. -/
theorem percolation_full {X1 S : ℝ} (hX : 1 ≤ X1) (hS : X1 - 3 * prec ≤ S) : prec < gr4jPercolation S X1 := by
  have hp : (prec : ℝ) = 1 / 10 ^ 8 := rfl
  have hX0 : 0 < X1 := by linarith
  have hS9 : 9 / 10 * X1 ≤ S := by rw [hp] at hS; linarith
  have hS0 : 0 < S := by linarith
  unfold gr4jPercolation
  rw [if_neg (by linarith)]
  dsimp only
  set r := S / X1 with hr
  have hr9 : 9 / 10 ≤ r := by rw [hr, le_div_iff₀ hX0]; exact hS9
  have hr4 : (9 / 10 : ℝ) * (9 / 10) * (9 / 10) * (9 / 10) ≤ r * r * r * r := by gcongr
  have hb : (1.02 : ℝ) ≤ 1 + r * r * r * r / (2562890625 / 100000000) := by
    have : (0.02 : ℝ) ≤ r * r * r * r / (2562890625 / 100000000) := by
      rw [le_div_iff₀ (by norm_num)]
      norm_num at hr4 ⊢
      linarith
    linarith
  have hpow : (1 + r * r * r * r / (2562890625 / 100000000)) ^ (-(1 / 4) : ℝ) ≤ (1.02 : ℝ) ^ (-(1 / 4) : ℝ) :=
    Real.rpow_le_rpow_of_nonpos (by norm_num) hb (by norm_num)
  have h2 : (1.02 : ℝ) ^ (-(1 / 4) : ℝ) ≤ 999 / 1000 := by
    rw [Real.rpow_neg (by norm_num), inv_le_comm₀ (by positivity) (by norm_num)]
    rw [Real.le_rpow_iff_log_le (by norm_num) (by norm_num)]
    rw [one_div, ← div_eq_inv_mul, le_div_iff₀ (by norm_num), mul_comm]
    have : (4 : ℝ) * Real.log (999 / 1000)⁻¹ = Real.log ((999 / 1000)⁻¹ ^ 4) := by rw [Real.log_pow]; norm_num
    rw [this]
    apply Real.log_le_log (by norm_num) (by norm_num)
  have : S * (1 / 1000) ≤ S * (1 - (1 + r * r * r * r / (2562890625 / 100000000)) ^ (-(1 / 4) : ℝ)) := by
    apply mul_le_mul_of_nonneg_left _ hS0.le
    linarith
  rw [hp]
  norm_num at hS9 this ⊢
  linarith

/-- The amounts of the production store are feasible. -/
theorem store_bounds {X1 S Pn En : ℝ} (hX : 1 ≤ X1) (hS : 0 ≤ S) (hSX : S ≤ X1) (hP : 0 ≤ Pn) :
    0 ≤ grRaw X1 S Pn En ∧ grRaw X1 S Pn En ≤ S + Pn ∧ S + Pn - grRaw X1 S Pn En ≤ X1 ∧
    0 ≤ grAsk X1 S Pn En ∧ grAsk X1 S Pn En ≤ X1 ∧ grAsk X1 S Pn En ≤ S + Pn - grPR X1 S Pn En ∧
    S + Pn - grPR X1 S Pn En - grAsk X1 S Pn En ≤ X1 ∧ S + Pn - grPR X1 S Pn En - grEs X1 S Pn En ≤ X1 ∧
    0 ≤ S + Pn - grPR X1 S Pn En - grEs X1 S Pn En := by
  have hX0 : 0 < X1 := by linarith
  obtain ⟨i1, i2, i3⟩ := infiltration_bounds (P := Pn) hX0 hS hSX
  rw [max_eq_left hP] at i2
  set Ps := gr4jInfiltration S Pn X1 with hPs
  obtain ⟨e1, -, e3⟩ := evaporation_bounds (E := En) hX0 (by linarith : 0 ≤ S + Ps) i3
  have hask : grAsk X1 S Pn En = gr4jEvaporation (S + Ps) En X1 := rfl
  rw [← hask] at e1 e3
  have hraw : grRaw X1 S Pn En = Pn - Ps + gr4jPercolation (S + Ps - grAsk X1 S Pn En) X1 := rfl
  obtain ⟨p1, p2⟩ := percolation_bounds (X := X1) (S := S + Ps - grAsk X1 S Pn En) hX0 (by linarith)
  set A := grAsk X1 S Pn En
  set C := gr4jPercolation (S + Ps - A) X1 with hC
  have c0 : 0 ≤ grRaw X1 S Pn En := by rw [hraw]; linarith
  have c1 := cut_le c0
  have c2 := cut_nonneg (grRaw X1 S Pn En)
  have c3 := @cut_gap (grRaw X1 S Pn En)
  have hPR : grPR X1 S Pn En = cut (grRaw X1 S Pn En) := rfl
  have hprec : (prec : ℝ) ≤ 1 / 100 := by unfold prec; norm_num
  have hcase : grPR X1 S Pn En = grRaw X1 S Pn En ∨ (grPR X1 S Pn En = 0 ∧ grRaw X1 S Pn En ≤ prec ∧ S + Ps - A < X1 - 3 * prec) := by
    by_cases h : prec < grRaw X1 S Pn En
    · left; rw [hPR, cut_of_gt h]
    · right
      refine ⟨by rw [hPR, cut_of_le (not_lt.1 h)], not_lt.1 h, ?_⟩
      by_contra hcon
      have := percolation_full hX (not_lt.1 hcon)
      rw [← hC] at this
      rw [hraw] at h
      linarith
  have hA : A ≤ S + Pn - grPR X1 S Pn En := by
    rw [hPR]
    linarith
  have hes : 0 ≤ grEs X1 S Pn En ∧ grEs X1 S Pn En ≤ A ∧ (A - grEs X1 S Pn En ≤ prec ∨ S + Pn - grPR X1 S Pn En ≤ prec) := by
    unfold grEs
    split
    · exact ⟨le_refl 0, e1, .inr ‹_›⟩
    · exact ⟨cut_nonneg _, cut_le e1, .inl cut_gap⟩
  refine ⟨c0, by rw [hraw]; linarith, by rw [hraw]; linarith, e1, by linarith, hA, ?_, ?_, by linarith⟩
  · rcases hcase with h | ⟨h1, h2, h3⟩
    · rw [h, hraw]; linarith
    · rw [h1]; rw [hraw] at h2; linarith
  · rcases hcase with h | ⟨h1, h2, h3⟩
    · rw [h, hraw]; linarith
    · rcases hes.2.2 with h4 | h4
      · rw [h1]; rw [hraw] at h2; linarith
      · linarith

theorem grPR_bounds {X1 S Pn En : ℝ} (hX : 1 ≤ X1) (hS : 0 ≤ S) (hSX : S ≤ X1) (hP : 0 ≤ Pn) :
    0 ≤ grPR X1 S Pn En ∧ grPR X1 S Pn En ≤ S + Pn := by
  obtain ⟨a, b, -⟩ := store_bounds (En := En) hX hS hSX hP
  exact ⟨cut_nonneg _, le_trans (cut_le a) b⟩

theorem grS_bounds {X1 S Pn En : ℝ} (hX : 1 ≤ X1) (hS : 0 ≤ S) (hSX : S ≤ X1) (hP : 0 ≤ Pn) : 0 ≤ grS X1 S Pn En ∧ grS X1 S Pn En ≤ X1 := by
  obtain ⟨-, -, -, -, -, -, -, a, b⟩ := store_bounds (En := En) hX hS hSX hP
  exact ⟨cut_nonneg _, le_trans (cut_le b) a⟩

/-- The production store. -/
theorem store_step (hl : GrLay net L) (hw : GrWorks net laws rt L u P E) (s : Sys ℝ (GrHid R)) {X1 S pn en is : ℝ}
    (hc : s.ph.cont L.cs = (still S is (some X1)).addStat pn) (hp : s.ph.amt L.ft = pn) (he : s.hid.demand E u = en)
    (hX : 1 ≤ X1) (hS : 0 ≤ S) (hSX : S ≤ X1) (hp0 : 0 ≤ pn) (hM : X1 + pn ≤ 10000) :
    ∃ s', directBrick net laws 1 s L.store = .ok s' ∧ s'.ph.cont L.cs = still (grS X1 S pn en) is (some X1) ∧
      (∀ c, c ≠ L.cs → s'.ph.cont c = s.ph.cont c) ∧ s'.ph.amt L.fp = grPR X1 S pn en ∧
      (∀ f, f ≠ L.fp → f ≠ L.fe → s'.ph.amt f = s.ph.amt f) ∧ s'.rate L.fp = some 0 ∧ s'.hid = s.hid := by
  have hn := hl.nodup
  simp only [GrIds.fluxes, List.nodup_cons, List.mem_cons, List.not_mem_nil, or_false, not_or] at hn
  obtain ⟨b1, b2, b3, b4, b5, b6, b7, b8, b9⟩ := store_bounds (En := en) hX hS hSX hp0
  have hX0 : ¬ X1 ≤ 0 := by linarith
  have houts : L.store.outsOf L.cs = [L.fp, L.fe] := by simp [GrIds.store, Brick.outsOf]
  have hft : L.ft ∉ L.store.outsOf L.cs := by
    rw [houts]
    simp only [List.mem_cons, List.not_mem_nil, or_false, not_or]
    exact ⟨hn.2.2.2.1.1, hn.2.2.2.1.2.1⟩
  have hfp : L.fp ≠ L.fe := hn.2.2.2.2.1.1
  set ph1 := readInputs net L.store s.ph with hph1
  have hph1' : ph1 = { s.ph with cont := upd s.ph.cont L.cs ⟨S, 0, pn, is, some X1, false, false⟩ } := by
    rw [hph1]
    unfold readInputs GrIds.store
    simp only [List.foldl_cons, List.foldl_nil, readCont, sumIncoming_one hl.inS, getAmount, hl.ft.1, Bool.false_eq_true, if_false, if_true, hc, still,
      Cont.addDyn, Cont.addStat, zero_add]
  have hg1 : ph1.cont L.cs = ⟨S, 0, pn, is, some X1, false, false⟩ := by rw [hph1']; exact upd_same' _ _ _
  set s1 : Sys ℝ (GrHid R) := ⟨ph1, L.store.outs.foldl (fun q f => upd q f (some 0)) s.rate, s.hid⟩ with hs1
  have hr1 : ∀ g ∈ L.store.outsOf L.cs, s1.rate g = some 0 := by
    intro g hg
    rw [houts] at hg
    simp only [hs1, Brick.outs, GrIds.store, List.flatMap_cons, List.flatMap_nil, List.append_nil, List.singleton_append, List.foldl_cons,
      List.foldl_nil]
    simp only [List.mem_cons, List.not_mem_nil, or_false] at hg
    rcases hg with rfl | rfl
    · unfold upd; split <;> simp
    · exact upd_same' _ _ _
  have hamt1 : ∀ f, s1.ph.amt f = s.ph.amt f := by intro f; rw [hs1]; dsimp only; rw [hph1']
  have hflow : ∀ s2 : Sys ℝ (GrHid R), s2.ph.amt L.ft = pn → inflowOf net s2 L.ft = .inst pn := by
    intro s2 h2
    unfold inflowOf
    rw [if_pos hl.ft.1, h2]
  -- production
  set rP := changeRate (ph1.cont L.cs) ((productionRate en (ph1.cont L.cs)).getD 0) with hrP
  have hrP' : 0 ≤ rP ∧ rP ≤ S + pn ∧ S + pn - rP ≤ X1 ∧ cut rP = grPR X1 S pn en := by
    have hval : (productionRate en (ph1.cont L.cs)).getD 0 = grRaw X1 S pn en := by
      rw [hg1]
      simp only [productionRate, Option.map_some, Option.getD_some, if_neg hX0, Cont.lvl, add_zero, grRaw, add_sub_cancel_left]
    rw [hrP, hval]
    unfold changeRate lessThanOrEqual
    have : (ph1.cont L.cs).lvl = S + pn := by rw [hg1]; simp [Cont.lvl]
    rw [this, zero_add, hg1]
    simp only [Bool.not_false, Bool.true_and, decide_eq_true_eq]
    by_cases h : S + pn ≤ prec
    · rw [if_pos h]
      have hprec : (prec : ℝ) ≤ 1 := by unfold prec; norm_num
      refine ⟨le_refl _, by linarith, by linarith, ?_⟩
      rw [cut_of_le prec_nonneg, grPR, cut_of_le (by linarith)]
    · rw [if_neg h]
      exact ⟨b1, b2, b3, rfl⟩
  obtain ⟨s2, e2, p2, hid2, z2, -⟩ := directProc_single (net := net) (laws := laws) (b := L.store) (s := s1) (p := ⟨L.pp, L.cs, [L.fp]⟩)
    (f := L.fp) (fin := L.ft) (rr := fun _ => rP) (x := 0) (h' := s.hid) (by
      change laws.rates L.pp s.hid ph1 = _
      rw [hw.pp, he]) rfl
    (by change (ph1.cont L.cs).infinite = false; rw [hg1]) (by change (ph1.cont L.cs).allowNeg = false; rw [hg1])
    (by rw [houts]; simp) (by rw [houts]; simp [hfp]) hr1 hl.inS hft hl.ovfS
    (by rw [hflow s1 (by rw [hamt1, hp])]; rfl) hrP'.1 (by linarith [hrP'.2.1])
    (by
      intro cap hcap
      rw [hflow s1 (by rw [hamt1, hp])]
      change (ph1.cont L.cs).cap = some cap at hcap
      change (ph1.cont L.cs).content + (ph1.cont L.cs).dyn + pn - rP ≤ cap
      rw [hg1] at hcap ⊢
      simp only [Option.some.injEq] at hcap
      subst hcap
      dsimp only
      linarith [hrP'.2.2.1])
  have hA2 : limited ((s1.ph.cont L.cs).content + (s1.ph.cont L.cs).dyn + (inflowOf net s1 L.ft).clip.staticOf) rP = rP := by
    rw [hflow s1 (by rw [hamt1, hp])]
    apply limited_self
    change rP ≤ (ph1.cont L.cs).content + (ph1.cont L.cs).dyn + pn
    rw [hg1]
    dsimp only
    linarith [hrP'.2.1]
  have hinj := injCont_none s1.ph L.cs
  obtain ⟨m1, m2, m3, m4⟩ := applyChange_plain (net := net) (src := L.cs) (f := L.fp) hrP'.1 (injCont s1.ph L.cs 0) hl.fp.1
  rw [hA2] at p2
  dsimp only at p2
  rw [← p2] at m1 m2 m3 m4
  rw [hinj] at m1 m2 m4
  dsimp only at m1 m2 m4
  rw [hrP'.2.2.2] at m1 m3
  have hscale : (net.flux L.fp).scale (grPR X1 S pn en) = grPR X1 S pn en := by simp [FluxSpec.scale, hl.fp.1, hl.fp.2.1]
  rw [hscale] at m3
  have hg2 : s2.ph.cont L.cs = ⟨S, -grPR X1 S pn en, pn, is, some X1, false, false⟩ := by
    rw [m1]
    change (ph1.cont L.cs).subDyn _ = _
    rw [hg1]
    simp [Cont.subDyn]
  -- evapotranspiration
  have hlvl2 : (s2.ph.cont L.cs).lvl = S + pn - grPR X1 S pn en := by rw [hg2]; simp only [Cont.lvl]; ring
  set rT := changeRate (s2.ph.cont L.cs) ((etRate 1 en (s2.ph.cont L.cs) .gr4j).getD 0) with hrT
  have hrT' : 0 ≤ rT ∧ rT ≤ grAsk X1 S pn en ∧ S + pn - grPR X1 S pn en - rT ≤ X1 ∧ cut rT = grEs X1 S pn en := by
    have hval : (etRate 1 en (s2.ph.cont L.cs) .gr4j).getD 0 = grAsk X1 S pn en := by
      unfold etRate
      dsimp only
      by_cases h : en ≤ 0
      · rw [if_pos h, Option.getD_some, grAsk, gr4jEvaporation, if_pos (.inl h)]
      · rw [if_neg h, hg2]
        simp only [Option.map_some, Option.getD_some, if_neg hX0, Cont.lvl, grAsk, add_sub_cancel_left]
    rw [hrT, hval]
    unfold changeRate lessThanOrEqual grEs
    rw [hlvl2, zero_add, hg2]
    simp only [Bool.not_false, Bool.true_and, decide_eq_true_eq]
    by_cases h : S + pn - grPR X1 S pn en ≤ prec
    · rw [if_pos h, if_pos h]
      have hprec : (prec : ℝ) ≤ 1 := by unfold prec; norm_num
      exact ⟨le_refl _, b4, by linarith, cut_of_le prec_nonneg⟩
    · rw [if_neg h, if_neg h]
      exact ⟨b4, le_refl _, b7, rfl⟩
  have hamt2 : s2.ph.amt L.ft = pn := by rw [m4 _ hn.2.2.2.1.1, hamt1, hp]
  obtain ⟨s3, e3, p3, hid3, z3, -⟩ := directProc_single (net := net) (laws := laws) (b := L.store) (s := s2) (p := ⟨L.pe, L.cs, [L.fe]⟩)
    (f := L.fe) (fin := L.ft) (rr := fun _ => rT) (x := 0) (h' := s.hid) (by
      change laws.rates L.pe s2.hid s2.ph = _
      rw [hw.pe, hid2, he]) rfl
    (by change (s2.ph.cont L.cs).infinite = false; rw [hg2]) (by change (s2.ph.cont L.cs).allowNeg = false; rw [hg2])
    (by rw [houts]; simp) (by rw [houts]; simp [hfp]) z2 hl.inS hft hl.ovfS
    (by rw [hflow s2 hamt2]; rfl) hrT'.1 (by linarith [hrT'.2.1])
    (by
      intro cap hcap
      rw [hflow s2 hamt2]
      change (s2.ph.cont L.cs).cap = some cap at hcap
      change (s2.ph.cont L.cs).content + (s2.ph.cont L.cs).dyn + pn - rT ≤ cap
      rw [hg2] at hcap ⊢
      simp only [Option.some.injEq] at hcap
      subst hcap
      dsimp only
      linarith [hrT'.2.2.1])
  have hA3 : limited ((s2.ph.cont L.cs).content + (s2.ph.cont L.cs).dyn + (inflowOf net s2 L.ft).clip.staticOf) rT = rT := by
    rw [hflow s2 hamt2]
    apply limited_self
    change rT ≤ (s2.ph.cont L.cs).content + (s2.ph.cont L.cs).dyn + pn
    rw [hg2]
    dsimp only
    linarith [hrT'.2.1]
  have hinj3 := injCont_none s2.ph L.cs
  obtain ⟨n1, n2, n3, n4⟩ := applyChange_plain (net := net) (src := L.cs) (f := L.fe) hrT'.1 (injCont s2.ph L.cs 0) hl.fe
  rw [hA3] at p3
  dsimp only at p3
  rw [← p3] at n1 n2 n3 n4
  rw [hinj3] at n1 n2 n4
  dsimp only at n1 n2 n4
  rw [hrT'.2.2.2] at n1
  have hg3 : s3.ph.cont L.cs = ⟨S, -grPR X1 S pn en - grEs X1 S pn en, pn, is, some X1, false, false⟩ := by
    rw [n1, hg2]
    simp [Cont.subDyn]
  obtain ⟨q1, q2, q3⟩ := finBrick_one laws L.store (c := L.cs) rfl s3
  have hstep : directBrick net laws 1 s L.store = .ok (finBrick laws L.store s3) := by
    unfold directBrick
    simp only [bind, Except.bind, pure, Except.pure]
    have : L.store.procs.foldlM (directProc net laws 1 L.store) s1 = .ok s3 := by
      change List.foldlM _ _ [_, _] = _
      simp only [List.foldlM_cons, List.foldlM_nil, bind, Except.bind, pure, Except.pure, e2, e3]
    rw [hs1] at this
    rw [this]
  refine ⟨_, hstep, ?_, ?_, ?_, ?_, ?_, ?_⟩
  · rw [q1]
    change upd _ _ _ _ = _
    rw [upd_same', finalize_cut (by rw [hg3]) (by rw [hg3]), hg3]
    dsimp only
    congr 2
    ring
  · intro c h1
    rw [q1]
    change upd _ _ _ _ = _
    rw [upd_ne' _ _ h1, n2 _ h1, m2 _ h1]
    change ph1.cont c = _
    rw [hph1']
    exact upd_ne' _ _ h1
  · rw [q1]
    change s3.ph.amt _ = _
    rw [n4 _ hfp, m3]
  · intro f h1 h2
    rw [q1]
    change s3.ph.amt f = _
    rw [n4 _ h2, m4 _ h1, hamt1]
  · rw [q2]
    exact z3 _ (by change L.fp ∈ L.store.outsOf L.cs; rw [houts]; simp)
  · rw [q3]
    change List.foldl _ _ [_, _] = _
    simp only [List.foldl_cons, List.foldl_nil, hw.fp, hw.fe]
    exact hid3

/-! ## The routing -/

/-- Discharge of the unit: what the routing asks for, at most what is in its container unless that may be negative. -/
def grQ (rt : Router R) (V : ℝ) (r : R) (PR : ℝ) : ℝ :=
  if rt.neg then cut (rt.want r PR) else cut (min (rt.want r PR) (V + PR))

/-- Water in the container of the routing at the end of the day. -/
def grV (rt : Router R) (V : ℝ) (r : R) (PR : ℝ) : ℝ :=
  if rt.neg then V + PR - grQ rt V r PR + rt.exch r PR
  else cut (V + PR - grQ rt V r PR + if V + PR ≤ prec then 0 else rt.exch r PR)

theorem uh_step (hl : GrLay net L) (hw : GrWorks net laws rt L u P E) (s : Sys ℝ (GrHid R)) {V pr ir : ℝ}
    (hc : s.ph.cont L.cr = ⟨V, 0, 0, ir, none, false, rt.neg⟩) (hp : s.ph.amt L.fp = pr) (hz : s.rate L.fp = some 0)
    (hV : rt.neg = false → 0 ≤ V) (hp0 : 0 ≤ pr) (hw0 : 0 ≤ rt.want (s.hid.st u) pr) (hM : rt.want (s.hid.st u) pr ≤ 10000) :
    ∃ s', directBrick net laws 1 s L.uh = .ok s' ∧ s'.ph.cont L.cr = ⟨grV rt V (s.hid.st u) pr, 0, 0, ir, none, false, rt.neg⟩ ∧
      (∀ c, c ≠ L.cr → s'.ph.cont c = s.ph.cont c) ∧ s'.ph.amt L.fq = (net.flux L.fq).scale (grQ rt V (s.hid.st u) pr) ∧
      (∀ f, f ≠ L.fq → s'.ph.amt f = s.ph.amt f) ∧
      s'.hid = { s.hid with st := upd s.hid.st u (rt.next (s.hid.st u) pr) } := by
  have hn := hl.nodup
  simp only [GrIds.fluxes, List.nodup_cons, List.mem_cons, List.not_mem_nil, or_false, not_or] at hn
  have houts : L.uh.outsOf L.cr = [L.fq] := by simp [GrIds.uh, Brick.outsOf]
  have hfp : L.fp ≠ L.fq := hn.2.2.2.2.1.2
  have hft : L.fp ∉ L.uh.outsOf L.cr := by rw [houts]; simpa using hfp
  set ph1 := readInputs net L.uh s.ph with hph1
  have hph1' : ph1 = { s.ph with cont := upd s.ph.cont L.cr ⟨V, pr, 0, ir, none, false, rt.neg⟩ } := by
    rw [hph1]
    unfold readInputs GrIds.uh
    simp only [List.foldl_cons, List.foldl_nil, readCont, sumIncoming_one hl.inR, getAmount, hl.fp.1, Bool.false_eq_true, if_false, hp, hc,
      Cont.addDyn, zero_add]
  have hg1 : ph1.cont L.cr = ⟨V, pr, 0, ir, none, false, rt.neg⟩ := by rw [hph1']; exact upd_same' _ _ _
  set s1 : Sys ℝ (GrHid R) := ⟨ph1, L.uh.outs.foldl (fun q f => upd q f (some 0)) s.rate, s.hid⟩ with hs1
  have hr1 : ∀ g ∈ L.uh.outsOf L.cr, s1.rate g = some 0 := by
    intro g hg
    rw [houts] at hg
    simp only [List.mem_cons, List.not_mem_nil, or_false] at hg
    subst hg
    exact upd_same' _ _ _
  have hrp : s1.rate L.fp = some 0 := by
    change upd s.rate L.fq (some 0) L.fp = _
    rw [upd_ne' _ _ hfp, hz]
  have hamt1 : ∀ f, s1.ph.amt f = s.ph.amt f := by intro f; rw [hs1]; dsimp only; rw [hph1']
  have hsum : ∀ ph : Phys ℝ, ph.amt L.fp = pr → sumIncoming net ph L.cr = pr := by
    intro ph h
    rw [sumIncoming_one hl.inR, getAmount, if_neg (by rw [hl.fp.1]; simp), h]
  have hflow : inflowOf net s1 L.fp = .rate (some 0) := by
    unfold inflowOf
    rw [if_neg (by rw [hl.fp.1]; simp), if_neg (by rw [hl.fp.2.2]; simp), hrp]
  have hlvl : (ph1.cont L.cr).lvl = V + pr := by rw [hg1]; simp [Cont.lvl]
  set r := s.hid.st u with hr
  set xQ : ℝ := rt.rate (ph1.cont L.cr) (rt.exch r pr) with hxQ
  -- the process, in both cases
  have hproc : ∃ s2 lim, directProc net laws 1 L.uh s1 ⟨L.pq, L.cr, [L.fq]⟩ = .ok s2 ∧
      s2.ph = applyChange net 1 L.cr L.fq lim (injCont s1.ph L.cr xQ) ∧ s2.hid = s.hid ∧ 0 ≤ lim ∧ cut lim = grQ rt V r pr := by
    cases hneg : rt.neg with
    | true =>
      obtain ⟨s2, e2, p2, hid2, -, -⟩ := directProc_neg (net := net) (laws := laws) (b := L.uh) (s := s1) (p := ⟨L.pq, L.cr, [L.fq]⟩)
        (f := L.fq) (fin := L.fp) (rr := fun _ => rt.want r pr) (x := xQ) (h' := s.hid) (by
          change laws.rates L.pq s.hid ph1 = _
          rw [hw.pq, hsum ph1 (by rw [hph1']; exact hp), ← hr, ← hxQ]
          unfold Router.rate
          simp only [hneg, if_true]) rfl
        (by change (ph1.cont L.cr).infinite = false; rw [hg1]) (by change (ph1.cont L.cr).allowNeg = true; rw [hg1]; exact hneg)
        (by change (ph1.cont L.cr).cap = none; rw [hg1])
        (by rw [houts]; simp) hr1 hl.inR hft hl.ovfR hw0 hM
      exact ⟨s2, _, e2, p2, hid2, hw0, by rw [grQ, hneg]; rfl⟩
    | false =>
      have hch : ∀ x : ℝ, rt.rate (ph1.cont L.cr) x = if V + pr ≤ prec then 0 else x := by
        intro x
        unfold Router.rate changeRate lessThanOrEqual
        rw [hlvl, hg1, zero_add, hneg]
        simp
      have hV := hV hneg
      set rQ : ℝ := if V + pr ≤ prec then 0 else rt.want r pr with hrQ
      have hrQ' : 0 ≤ rQ ∧ rQ ≤ 10000 := by
        rw [hrQ]
        split
        · exact ⟨le_refl _, by norm_num⟩
        · exact ⟨hw0, hM⟩
      obtain ⟨s2, e2, p2, hid2, -, -⟩ := directProc_single (net := net) (laws := laws) (b := L.uh) (s := s1) (p := ⟨L.pq, L.cr, [L.fq]⟩)
        (f := L.fq) (fin := L.fp) (rr := fun _ => rQ) (x := xQ) (h' := s.hid) (by
          change laws.rates L.pq s.hid ph1 = _
          rw [hw.pq, hsum ph1 (by rw [hph1']; exact hp), ← hr, ← hxQ, hch, ← hrQ]) rfl
        (by change (ph1.cont L.cr).infinite = false; rw [hg1]) (by change (ph1.cont L.cr).allowNeg = false; rw [hg1]; exact hneg)
        (by rw [houts]; simp) (by rw [houts]; simp) hr1 hl.inR hft hl.ovfR
        (by rw [hflow]; simp [Inflow.clip, Inflow.rateOf, clip]) hrQ'.1 hrQ'.2
        (by
          intro cap hcap
          change (ph1.cont L.cr).cap = some cap at hcap
          rw [hg1] at hcap
          exact absurd hcap (by simp))
      refine ⟨s2, _, e2, p2, hid2, ?_⟩
      rw [hflow]
      change 0 ≤ limited ((ph1.cont L.cr).content + (ph1.cont L.cr).dyn + 0) rQ ∧ cut (limited ((ph1.cont L.cr).content + (ph1.cont L.cr).dyn + 0) rQ) = _
      rw [hg1]
      dsimp only
      rw [add_zero, grQ, hneg, if_neg Bool.false_ne_true]
      by_cases h : V + pr ≤ prec
      · rw [hrQ, if_pos h, limited_self (by linarith)]
        refine ⟨le_refl _, ?_⟩
        rw [cut_of_le prec_nonneg, cut_of_le (le_trans (min_le_right _ _) h)]
      · rw [hrQ, if_neg h, limited_min (not_le.1 h)]
        exact ⟨le_min hw0 (by linarith), rfl⟩
  obtain ⟨s2, lim, e2, p2, hid2, hlim0, hlim⟩ := hproc
  obtain ⟨m1, m2, m3, m4⟩ := applyChange_plain (net := net) (src := L.cr) (f := L.fq) hlim0 (injCont s1.ph L.cr xQ) hl.fq
  rw [← p2] at m1 m2 m3 m4
  rw [hlim] at m1 m3
  have hg2 : s2.ph.cont L.cr = ⟨V, pr - grQ rt V r pr, xQ, ir, none, false, rt.neg⟩ := by
    rw [m1]
    change (upd ph1.cont L.cr ((ph1.cont L.cr).addStat xQ) L.cr).subDyn _ = _
    rw [upd_same', hg1]
    simp [Cont.subDyn, Cont.addStat]
  have hamt2 : ∀ f, f ≠ L.fq → s2.ph.amt f = s.ph.amt f := by
    intro f hf
    rw [m4 _ hf]
    change s1.ph.amt f = _
    rw [hamt1]
  obtain ⟨q1, q2, q3⟩ := finBrick_one laws L.uh (c := L.cr) rfl s2
  have hstep : directBrick net laws 1 s L.uh = .ok (finBrick laws L.uh s2) := by
    unfold directBrick
    simp only [bind, Except.bind, pure, Except.pure]
    have : L.uh.procs.foldlM (directProc net laws 1 L.uh) s1 = .ok s2 := by
      change List.foldlM _ _ [_] = _
      simp only [List.foldlM_cons, List.foldlM_nil, bind, Except.bind, pure, Except.pure, e2]
    rw [hs1] at this
    rw [this]
  refine ⟨_, hstep, ?_, ?_, ?_, ?_, ?_⟩
  · rw [q1]
    change upd _ _ _ _ = _
    rw [upd_same', grV]
    have hx' : xQ = if rt.neg then rt.exch r pr else if V + pr ≤ prec then 0 else rt.exch r pr := by
      rw [hxQ]
      unfold Router.rate changeRate lessThanOrEqual
      rw [hlvl, hg1, zero_add]
      by_cases hneg : rt.neg <;> simp [hneg]
    cases hneg : rt.neg with
    | true =>
      rw [finalize_neg (by rw [hg2]) (by rw [hg2]; exact hneg), hg2, if_pos rfl, hx', hneg, if_pos rfl]
      congr 1
      dsimp only
      ring
    | false =>
      rw [finalize_cut (by rw [hg2]) (by rw [hg2]; exact hneg), hg2, if_neg Bool.false_ne_true, hx', hneg, if_neg Bool.false_ne_true]
      unfold still
      congr 2
      ring
  · intro c h1
    rw [q1]
    change upd _ _ _ _ = _
    rw [upd_ne' _ _ h1, m2 _ h1]
    change upd ph1.cont L.cr _ c = _
    rw [upd_ne' _ _ h1, hph1']
    exact upd_ne' _ _ h1
  · rw [q1]
    exact m3
  · intro f h1
    rw [q1]
    exact hamt2 f h1
  · rw [q3]
    change List.foldl _ _ [_] = _
    simp only [List.foldl_cons, List.foldl_nil, hw.fq]
    rw [hid2, hsum _ (by change s2.ph.amt L.fp = pr; rw [hamt2 _ hfp, hp])]

end

end

end HB
