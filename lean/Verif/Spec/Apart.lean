import Verif.Model.Network

/-!
# Specification for C72: what happens in one unit does not depend on the others
-/

namespace HB.Spec

variable {K σ τ : Type} [Field K] [LinearOrder K]

/-- A part of a model: some of its containers and of its fluxes (for a unit: its storages and the fluxes leaving them or its splitters). -/
structure Part where
  C : ℕ → Prop
  F : ℕ → Prop

/-- The brick is in the part: its storages, the storages its processes draw from and the fluxes leaving it. -/
def Part.Inside (P : Part) (b : Brick) : Prop :=
  (∀ c ∈ b.conts, P.C c.1) ∧ (∀ p ∈ b.procs, P.C p.src) ∧ ∀ p ∈ b.procs, ∀ f ∈ p.outs, P.F f

/-- The brick has nothing to do with the part: it draws from other storages, through other fluxes, and deposits nothing in the part. -/
def Part.Outside (P : Part) (net : Net K) (b : Brick) : Prop :=
  (∀ c ∈ b.conts, ¬ P.C c.1) ∧ (∀ p ∈ b.procs, ¬ P.C p.src) ∧
    ∀ p ∈ b.procs, ∀ f ∈ p.outs, ¬ P.F f ∧ ∀ c, (net.flux f).target = .cont c → (net.flux f).inst = true → ¬ P.C c

/-- Nothing flows into the part from the rest of the model, and the rest is fed by the part only with amounts (instantaneous or static fluxes)
that it cannot send back. -/
structure Apart (net : Net K) (P : Part) : Prop where
  direct : ∀ u ∈ net.units, ∀ b ∈ u.direct, P.Inside b ∨ P.Outside net b
  solver : ∀ b ∈ net.solver, P.Inside b ∨ P.Outside net b
  split : ∀ u ∈ net.units, ∀ sp ∈ u.splitters, (∀ f ∈ sp.2, P.F f) ∨
    ∀ f ∈ sp.2, ¬ P.F f ∧ ∀ c, (net.flux f).target = .cont c → (net.flux f).inst = true → ¬ P.C c
  inputs : ∀ f ∈ net.fluxes, ∀ c, (net.flux f).target = .cont c → P.C c → P.F f
  fed : ∀ f ∈ net.fluxes, ∀ c, (net.flux f).target = .cont c → ¬ P.C c → P.F f → (net.flux f).inst = true ∨ (net.flux f).static = true

/-- The two physical states are the same in the part: contents and amounts. -/
def SameIn (P : Part) (ph ph' : Phys K) : Prop := (∀ c, P.C c → ph.cont c = ph'.cont c) ∧ ∀ f, P.F f → ph.amt f = ph'.amt f

/-- The two states are the same as far as the part is concerned; `view` reads off the hidden state what concerns the part
(its weather, its parameters, the memory of its processes). -/
def Alike (P : Part) (view : σ → τ) (s s' : Sys K σ) : Prop :=
  SameIn P s.ph s'.ph ∧ (∀ f, P.F f → s.rate f = s'.rate f) ∧ view s.hid = view s'.hid

/-- The laws of two models, local to the part and the same there: a process of the part computes its rates and its memory from what it can
see of the part; a process outside does not touch what concerns the part.  So do the splitters. -/
structure Local (net : Net K) (P : Part) (view : σ → τ) (laws laws' : Laws K σ) : Prop where
  rates : ∀ b, b ∈ net.solver ∨ (∃ u ∈ net.units, b ∈ u.direct) → P.Inside b → ∀ p ∈ b.procs, ∀ h h' ph ph', view h = view h' → SameIn P ph ph' →
    (∀ f ∈ p.outs, (laws.rates p.pid h ph).1 f = (laws'.rates p.pid h' ph').1 f) ∧
    (laws.rates p.pid h ph).2.1 = (laws'.rates p.pid h' ph').2.1 ∧ view (laws.rates p.pid h ph).2.2 = view (laws'.rates p.pid h' ph').2.2
  fin : ∀ b, b ∈ net.solver ∨ (∃ u ∈ net.units, b ∈ u.direct) → P.Inside b → ∀ p ∈ b.procs, ∀ h h' ph ph', view h = view h' → SameIn P ph ph' →
    view (laws.fin p.pid h ph) = view (laws'.fin p.pid h' ph')
  split : ∀ u ∈ net.units, ∀ sp ∈ u.splitters, (∀ f ∈ sp.2, P.F f) → ∀ h h' ph ph', view h = view h' → SameIn P ph ph' →
    (∀ f ∈ sp.2, (laws.split sp.1 h ph).1 f = (laws'.split sp.1 h' ph').1 f) ∧ view (laws.split sp.1 h ph).2 = view (laws'.split sp.1 h' ph').2
  foreign : ∀ b, b ∈ net.solver ∨ (∃ u ∈ net.units, b ∈ u.direct) → P.Outside net b → ∀ p ∈ b.procs, ∀ h ph,
    view (laws.rates p.pid h ph).2.2 = view h ∧ view (laws.fin p.pid h ph) = view h ∧
    view (laws'.rates p.pid h ph).2.2 = view h ∧ view (laws'.fin p.pid h ph) = view h
  foreignSplit : ∀ u ∈ net.units, ∀ sp ∈ u.splitters, (∀ f ∈ sp.2, ¬ P.F f) → ∀ h ph,
    view (laws.split sp.1 h ph).2 = view h ∧ view (laws'.split sp.1 h ph).2 = view h

/-- The same for what a sequential solver computes brick by brick. -/
structure LocalSeq (net : Net K) (P : Part) (view : σ → τ) (law law' : SeqLaw K σ) : Prop where
  conts : ∀ b ∈ net.solver, b.conts ≠ []
  rates : ∀ b ∈ net.solver, P.Inside b → ∀ dt c i h h' ph ph', view h = view h' → SameIn P ph ph' →
    (∀ p ∈ b.procs, ∀ f ∈ p.outs, (law b dt c i h ph).1 f = (law' b dt c i h' ph').1 f) ∧
    (∀ p ∈ b.procs, (law b dt c i h ph).2.1 p.pid = (law' b dt c i h' ph').2.1 p.pid) ∧
    view (law b dt c i h ph).2.2 = view (law' b dt c i h' ph').2.2
  foreign : ∀ b ∈ net.solver, P.Outside net b → ∀ dt c i h ph,
    view (law b dt c i h ph).2.2 = view h ∧ view (law' b dt c i h ph).2.2 = view h

/-- The same solver; what a sequential solver computes is local to the part. -/
inductive SameScheme (net : Net K) (P : Part) (view : σ → τ) : Scheme K σ → Scheme K σ → Prop
  | euler : SameScheme net P view .euler .euler
  | heun : SameScheme net P view .heun .heun
  | rk4 : SameScheme net P view .rk4 .rk4
  | sequential (law law' : SeqLaw K σ) : LocalSeq net P view law law' → SameScheme net P view (.sequential law) (.sequential law')

end HB.Spec
