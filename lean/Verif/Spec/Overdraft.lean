import Verif.Model.Network

/-!
# Specification for C71: no storage releases more than it holds

Used for the bricks computed directly (surface covers and snowpacks, Processor.cpp:240-323).
-/

namespace HB.Spec

variable {K σ : Type} [Field K] [LinearOrder K]

/-- The container has a finite content that must not become negative. -/
def Limited (ph : Phys K) (c : ℕ) : Prop := (ph.cont c).infinite = false ∧ (ph.cont c).allowNeg = false

/-- The water in the container, with all the changes of the current step. -/
def holds (ph : Phys K) (c : ℕ) : K := (ph.cont c).content + (ph.cont c).dyn + (ph.cont c).stat

/-- The bricks computed directly that exist (non-zero area fraction). -/
def directBricks (net : Net K) : List Brick := net.units.flatMap fun u => u.direct.filter (!·.null)

/-- The structure of the brick is such that `ApplyConstraints` counts every inflow of the container once, with the amount of the current
step: the processes feeding the container come before those drawing from it, they do so instantaneously, no other brick feeds it
instantaneously, and amounts known beforehand (forcing, splitter) are booked in the static change. -/
def CountedOnce (net : Net K) (b : Brick) (c : ℕ) : Prop :=
  ∃ pre post, b.procs = pre ++ post ∧ (∀ p ∈ pre, p.src ≠ c) ∧
    (∀ p ∈ post, ∀ f ∈ p.outs, (net.flux f).target ≠ .cont c) ∧
    (∀ p ∈ pre, ∀ f ∈ p.outs, (net.flux f).target = .cont c → (net.flux f).inst = true) ∧
    (∀ f ∈ net.fluxes, (net.flux f).target = .cont c → (net.flux f).inst = true → ∃ p ∈ pre, f ∈ p.outs) ∧
    ((c, true) ∈ b.conts ∨ ∀ f ∈ net.fluxes, (net.flux f).target = .cont c → (net.flux f).inst = false → (net.flux f).static = false)

/-- The processes drawing from the container never ask for more than it holds, whatever the state. -/
def Modest (laws : Laws K σ) (dt : K) (b : Brick) (c : ℕ) : Prop :=
  ∀ p ∈ b.procs, p.src = c → ∀ h ph, Limited ph c → 0 ≤ holds ph c →
    (p.outs.map fun f => max 0 ((laws.rates p.pid h ph).1 f) * dt).sum ≤ holds ph c

/-- Structures and laws for which the claim is proved: distinct fluxes with non-negative weights; splitters hand out non-negative amounts;
in each brick computed directly the processes draw from the brick's own containers, feed others, are no overflow and no groundwater
exchange, are not fed by solved bricks, bricks do not share containers, and each limited container is counted once or modestly used. -/
structure Accountable (net : Net K) (laws : Laws K σ) (dt : K) (ph : Phys K) : Prop where
  nodup : net.fluxes.Nodup
  frac : ∀ f, 0 ≤ (net.flux f).frac
  split : ∀ u ∈ net.units, ∀ sp ∈ u.splitters, ∀ h ph, ∀ f ∈ sp.2, 0 ≤ (laws.split sp.1 h ph).1 f
  src : ∀ b ∈ directBricks net, ∀ p ∈ b.procs, p.src ∈ b.conts.map (·.1)
  self : ∀ b ∈ directBricks net, ∀ p ∈ b.procs, ∀ f ∈ p.outs, (net.flux f).target ≠ .cont p.src
  ovf : ∀ b ∈ directBricks net, ∀ c ∈ b.conts, net.ovf c.1 = none
  exchange : ∀ b ∈ directBricks net, ∀ p ∈ b.procs, ∀ h ph, (laws.rates p.pid h ph).2.1 = 0
  fed : ∀ b ∈ directBricks net, ∀ c ∈ b.conts, ∀ f ∈ net.fluxes, (net.flux f).target = .cont c.1 → f ∉ net.solverOuts
  disjoint : ∀ b ∈ directBricks net, ∀ b' ∈ directBricks net, ∀ c ∈ b.conts, ∀ c' ∈ b'.conts, c.1 = c'.1 → b = b'
  safe : ∀ b ∈ directBricks net, ∀ c ∈ b.conts, Limited ph c.1 → CountedOnce net b c.1 ∨ Modest laws dt b c.1

/-- State between two time steps: amounts and the limited contents of the directly computed bricks are not negative; no rate is
attached to a flux of the direct phase. -/
structure Clean (net : Net K) (s : Sys K σ) : Prop where
  amt : ∀ f, 0 ≤ s.ph.amt f
  held : ∀ b ∈ directBricks net, ∀ c ∈ b.conts, Limited s.ph c.1 →
    0 ≤ (s.ph.cont c.1).content ∧ 0 ≤ (s.ph.cont c.1).dyn ∧ 0 ≤ (s.ph.cont c.1).stat
  idle : ∀ f, f ∉ net.solverOuts → (s.rate f).getD 0 = 0

end HB.Spec
