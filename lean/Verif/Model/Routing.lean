import Mathlib.Analysis.SpecialFunctions.Pow.Real
import Mathlib.Analysis.SpecialFunctions.Log.Basic

/-!
# Unit hydrographs and routing processes

Model of `helpers/GRUnitHydrograph.h`, `helpers/GR6JFormulas.h`, `ProcessRoutingGR4J.cpp`,
`ProcessRoutingGR6J.cpp` and `ProcessRoutingHBV.cpp`.  The parameter pointers are set (the code returns
0 otherwise); `std::vector<double>` is a list; the in-place buffer advance reads entry `j+1` before it is
overwritten, so it is a functional map.
-/

namespace HB

noncomputable section

/-! ## S-curves and ordinates -/

/-- `gr_uh::SH1` (GRUnitHydrograph.h:18-26) and `ProcessRoutingGR4J::_sh1` (ProcessRoutingGR4J.cpp:205-209). -/
def sh1 (t x4 : ℝ) : ℝ :=
  if t ≤ 0 then 0 else if t ≥ x4 then 1 else (t / x4) ^ (5 / 2 : ℝ)

/-- `gr_uh::SH2` (GRUnitHydrograph.h:31-42) and `_sh2` (ProcessRoutingGR4J.cpp:211-216). -/
def sh2 (t x4 : ℝ) : ℝ :=
  if t ≤ 0 then 0 else if t ≥ 2 * x4 then 1
  else if t < x4 then 1 / 2 * (t / x4) ^ (5 / 2 : ℝ)
  else 1 - 1 / 2 * (2 - t / x4) ^ (5 / 2 : ℝ)

/-- `ProcessRoutingHBV::_cumulativeWeight` (ProcessRoutingHBV.cpp:130-138). -/
def hbvCum (t maxbas : ℝ) : ℝ :=
  if t ≤ 0 then 0 else if t ≥ maxbas then 1 else
  let ratio := t / maxbas
  if ratio ≤ 1 / 2 then 2 * ratio * ratio else 1 - 2 * (1 - ratio) * (1 - ratio)

/-- Ordinates: successive differences of a curve, `n` of them (GRUnitHydrograph.h:60-68). -/
def ordinates (S : ℝ → ℝ) (n : Nat) : List ℝ :=
  (List.range n).map (fun (j : ℕ) => S ((j : ℝ) + 1) - S (j : ℝ))

/-- Clamped base time (GRUnitHydrograph.h:54-56, ProcessRoutingGR4J.cpp:183-185). -/
def baseTime (x4 : ℝ) : ℝ := if x4 ≤ 0 then 1 / 2 else x4

/-- UH1 ordinates (GRUnitHydrograph.h:53-63, ProcessRoutingGR4J.cpp:182-193). -/
def uh1 (x4 : ℝ) : List ℝ := ordinates (fun t => sh1 t (baseTime x4)) ⌈baseTime x4⌉₊

/-- UH2 ordinates (GRUnitHydrograph.h:65-68, ProcessRoutingGR4J.cpp:195-198). -/
def uh2 (x4 : ℝ) : List ℝ := ordinates (fun t => sh2 t (baseTime x4)) ⌈2 * baseTime x4⌉₊

/-- Clamped MAXBAS (ProcessRoutingHBV.cpp:113-116). -/
def clampMaxbas (m : ℝ) : ℝ := if m < 1 then 1 else m

/-- HBV triangular weights (ProcessRoutingHBV.cpp:119-124). -/
def hbvWeights (m : ℝ) : List ℝ := ordinates (fun t => hbvCum t (clampMaxbas m)) ⌈clampMaxbas m⌉₊

/-! ## Unit hydrograph buffer -/

/-- Advance of a buffer: entry `j` becomes old entry `j+1` plus ordinate `j` times the input
(ProcessRoutingGR4J.cpp:145-155, ProcessRoutingGR6J.cpp:173-187). -/
def advance (ord st : List ℝ) (P : ℝ) : List ℝ :=
  List.zipWith (fun a w => a + w * P) (st.drop 1 ++ [0]) ord

/-- Output predicted by `GetRates` before the buffer is advanced (ProcessRoutingGR4J.cpp:89-94). -/
def predictOut (ord st : List ℝ) (P : ℝ) : ℝ :=
  (if st.length > 1 then st.getD 1 0 else 0) + ord.getD 0 0 * P

/-- Buffer after the first `t` inputs, from empty (`Reset`, ProcessRoutingGR4J.cpp:36-45). -/
def buffer (ord : List ℝ) (ins : ℕ → ℝ) : ℕ → List ℝ
  | 0 => List.replicate ord.length 0
  | t + 1 => advance ord (buffer ord ins t) (ins t)

/-- Water released at step `t`: first entry of the advanced buffer. -/
def uhOut (ord : List ℝ) (ins : ℕ → ℝ) (t : ℕ) : ℝ := (buffer ord ins (t + 1)).getD 0 0

/-! ## GR4J routing -/

/-- Parameters X2, X3 and the ordinates. -/
structure GR4JPar where
  X2 : ℝ
  X3 : ℝ
  ord1 : List ℝ
  ord2 : List ℝ

/-- State of the routing process: routing store and buffers. -/
structure GR4JSt where
  r : ℝ
  st1 : List ℝ
  st2 : List ℝ

/-- Groundwater exchange (ProcessRoutingGR4J.cpp:96-101, 157-162). -/
def gr4jExchange (p : GR4JPar) (r : ℝ) : ℝ :=
  if p.X3 > 0 then
    let rr := r / p.X3
    p.X2 * rr * rr * rr * Real.sqrt rr
  else 0

/-- Release of the routing store at level `r` (ProcessRoutingGR4J.cpp:105-110, 164-169). -/
def routingRelease (X3 r : ℝ) : ℝ :=
  let rr4 := if X3 > 0 then (let q := r / X3; q * q * q * q) else 0
  r * (1 - (1 + rr4) ^ (-(1 / 4) : ℝ))

/-- `GetRates` (ProcessRoutingGR4J.cpp:67-128): routed release, direct release, exchange injected in the
container (per day). -/
def gr4jRates (p : GR4JPar) (s : GR4JSt) (PR : ℝ) : ℝ × ℝ × ℝ :=
  let u1 := predictOut p.ord1 s.st1 (9 / 10 * PR)
  let u2 := predictOut p.ord2 s.st2 (1 / 10 * PR)
  let F := gr4jExchange p s.r
  let rp := max 0 (s.r + u1 + F)
  let qr := routingRelease p.X3 rp
  let qd := max 0 (u2 + F)
  (qr, qd, (rp - (s.r + u1)) + (qd - u2))

/-- `Finalize` (ProcessRoutingGR4J.cpp:130-175): the committed state, qr and qd. -/
def gr4jFinalize (p : GR4JPar) (s : GR4JSt) (PR : ℝ) : GR4JSt × ℝ × ℝ :=
  let st1 := advance p.ord1 s.st1 (9 / 10 * PR)
  let st2 := advance p.ord2 s.st2 (1 / 10 * PR)
  let F := gr4jExchange p s.r
  let r := max 0 (s.r + st1.getD 0 0 + F)
  let qr := routingRelease p.X3 r
  (⟨r - qr, st1, st2⟩, qr, max 0 (st2.getD 0 0 + F))

/-- `internal_storage` logged (ProcessRoutingGR4J.cpp:173-174). -/
def gr4jLogged (s : GR4JSt) : ℝ := s.r + s.st1.sum + s.st2.sum

/-! ## GR6J routing -/

/-- `gr6j::ExponentialStoreOutflow` (GR6JFormulas.h:23-39). -/
def expOutflow (R X6 : ℝ) : ℝ :=
  if X6 ≤ 0 then max 0 R else
  let ar := max (-33) (min 33 (R / X6))
  if ar > 7 then R + X6 / Real.exp ar
  else if ar < -7 then X6 * Real.exp ar
  else X6 * Real.log (Real.exp ar + 1)

structure GR6JPar where
  X2 : ℝ
  X3 : ℝ
  X5 : ℝ
  X6 : ℝ
  ord1 : List ℝ
  ord2 : List ℝ

structure GR6JSt where
  r : ℝ
  rexp : ℝ
  st1 : List ℝ
  st2 : List ℝ

/-- Threshold exchange (ProcessRoutingGR6J.cpp:125-129, 189-193). -/
def gr6jExchange (p : GR6JPar) (r : ℝ) : ℝ := if p.X3 > 0 then p.X2 * (r / p.X3 - p.X5) else 0

/-- `GetRates` (ProcessRoutingGR6J.cpp:98-153): the rate sent to the outlet. -/
def gr6jRate (p : GR6JPar) (s : GR6JSt) (PR : ℝ) : ℝ :=
  let u1 := predictOut p.ord1 s.st1 (9 / 10 * PR)
  let u2 := predictOut p.ord2 s.st2 (1 / 10 * PR)
  let F := gr6jExchange p s.r
  let qr := routingRelease p.X3 (max 0 (s.r + 6 / 10 * u1 + F))
  let qe := expOutflow (s.rexp + 4 / 10 * u1 + F) p.X6
  let qd := max 0 (u2 + F)
  max 0 (qr + qe + qd)

/-- `Finalize` (ProcessRoutingGR6J.cpp:155-218): committed state and qr, qrexp, qd. -/
def gr6jFinalize (p : GR6JPar) (s : GR6JSt) (PR : ℝ) : GR6JSt × ℝ × ℝ × ℝ :=
  let st1 := advance p.ord1 s.st1 (9 / 10 * PR)
  let st2 := advance p.ord2 s.st2 (1 / 10 * PR)
  let F := gr6jExchange p s.r
  let u1 := st1.getD 0 0
  let u2 := st2.getD 0 0
  let r := max 0 (s.r + 6 / 10 * u1 + F)
  let qr := routingRelease p.X3 r
  let rexp := s.rexp + 4 / 10 * u1 + F
  let qe := expOutflow rexp p.X6
  (⟨r - qr, rexp - qe, st1, st2⟩, qr, qe, max 0 (u2 + F))

/-! ## HBV routing -/

/-- Delivery schedule and content seen at the previous step (ProcessRoutingHBV.h). -/
structure HBVSt where
  sched : List ℝ
  prev : ℝ

/-- `GetRates` (ProcessRoutingHBV.cpp:60-75). -/
def hbvRate (ord : List ℝ) (s : HBVSt) (inflow : ℝ) : ℝ :=
  max 0 (s.sched.getD 0 0) + ord.getD 0 0 * inflow

/-- `Finalize` (ProcessRoutingHBV.cpp:77-106) given the committed content and delivered amount. -/
def hbvFinalize (ord : List ℝ) (s : HBVSt) (content delivered : ℝ) : HBVSt :=
  let inflow := content - s.prev + delivered
  let carry := s.sched.getD 0 0 + ord.getD 0 0 * inflow - delivered
  let shifted := List.zipWith (fun a w => a + w * inflow) (s.sched.drop 1) (ord.drop 1) ++ [0]
  ⟨shifted.set 0 (shifted.getD 0 0 + carry), content⟩

/-- `internal_storage` logged (ProcessRoutingHBV.cpp:105). -/
def hbvLogged (s : HBVSt) : ℝ := s.sched.sum

end

end HB
