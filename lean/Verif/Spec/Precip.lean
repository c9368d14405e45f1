import Verif.Spec.Predefined

/-!
# Closing the balance with precipitation

What falls on the basin, what evaporates, what inexhaustible stores (glacier ice) give and take, and what is expected of the
splitters and of the clock.
-/

namespace HB.Spec

open HB.Names HB.Wire

variable {K σ : Type}

section
variable [Field K]

/-- Volume of precipitation on the whole basin at time `t`, `P u t` being the precipitation on unit `u`. -/
def precipitation (inp : Input K) (P : ℕ → ℕ → K) (t : ℕ) : K := (inp.units.zipIdx.map fun uu => uu.1.area * P uu.2 t).sum

variable [LinearOrder K]

/-- Volume released to the atmosphere: evapotranspiration, interception, sublimation. -/
def evaporated (inp : Input K) (ext : ℕ → ℕ → K) (m : Wire.Model K) (ph : Phys K) : K :=
  volumeOf inp ext m (fun f => decide (f.dst = .atmosphere)) ph

/-- The inexhaustible stores. -/
def endless (inp : Input K) (ext : ℕ → ℕ → K) (s0 : Phys K) : List (Comp × Store) :=
  (stores inp ext).filter fun x => (s0.cont (Asm.contId x.1 x.2)).infinite

/-- Volume supplied by inexhaustible stores, less what they took in. -/
def supplied (inp : Input K) (ext : ℕ → ℕ → K) (m : Wire.Model K) (l : List (Comp × Store)) (ph : Phys K) : K :=
  volumeOf inp ext m (fun f => inside l (sourceOf inp f)) ph - volumeOf inp ext m (fun f => inside l (targetOf f)) ph

/-- The land covers of each unit cover it whole; one that is there has an area above 1e-8. -/
structure Covered (inp : Input K) (ext : ℕ → ℕ → K) : Prop where
  whole : ∀ (u : ℕ) (un : UnitIn K), inp.units[u]? = some un → (un.str.covers.map (ext u)).sum = 1
  clear : ∀ (u : ℕ) (un : UnitIn K), inp.units[u]? = some un → ∀ i ∈ un.str.covers, ext u i = 0 ∨ prec < ext u i

end

/-- The numbers of the fluxes satisfying `P`, in order of attachment. -/
def numbers (m : Wire.Model K) (P : Wire.Flux K → Bool) : List ℕ := (m.net.outs.zipIdx.filter fun e => P e.1).map (·.2)

/-- What the splitters do: one that hands on what it receives gives each output the amount of its first input; any other one
shares out the precipitation of its unit. -/
structure SplittersWork [Field K] (inp : Input K) (m : Wire.Model K) (laws : Laws K σ) (time : σ → ℕ) (P : ℕ → ℕ → K) : Prop where
  share : ∀ (u j : ℕ) (un : UnitIn K) (s : Split), inp.units[u]? = some un → un.str.unitSplits[j]? = some s → s.type ≠ "multi_fluxes" →
    ∀ h ph, ((numbers m fun f => decide (f.src = .unitSplit u j)).map (laws.split (Nat.pair u j) h ph).1).sum = P u (time h)
  pass : ∀ (u j : ℕ) (un : UnitIn K) (s : Split), inp.units[u]? = some un → un.str.unitSplits[j]? = some s → s.type = "multi_fluxes" →
    ∀ k, (numbers m fun f => decide (f.dst = .comp (.unitSplit u j))).head? = some k →
    ∀ h ph, ∀ i ∈ numbers m (fun f => decide (f.src = .unitSplit u j)), (laws.split (Nat.pair u j) h ph).1 i = ph.amt k

/-- The first splitter of each unit shares out the precipitation (rather than handing on what it receives). -/
def Separates (inp : Input K) : Prop := ∀ un ∈ inp.units, ∀ s, un.str.unitSplits[0]? = some s → s.type ≠ "multi_fluxes"

/-- The clock moves between time steps only. -/
structure Clocked (laws : Laws K σ) (sch : Scheme K σ) (tick : σ → σ) (time : σ → ℕ) : Prop where
  rates : ∀ p h ph, time (laws.rates p h ph).2.2 = time h
  fin : ∀ p h ph, time (laws.fin p h ph) = time h
  split : ∀ p h ph, time (laws.split p h ph).2 = time h
  solver : ∀ law, sch = .sequential law → ∀ b dt c i h ph, time (law b dt c i h ph).2.2 = time h
  tick : ∀ h, time (tick h) = time h + 1

/-- The water balance closes: over every run from a fresh state, as long as no negative content is reported, the volume stored
changes by the precipitation on the basin, minus the basin area times the reported discharge, minus what evaporates, plus what
inexhaustible stores supply, plus groundwater exchange, up to 1e-8 per unit of area and time step. -/
def Closes [Field K] [LinearOrder K] (inp : Input K) (m : Wire.Model K) (ext : ℕ → ℕ → K) (laws : Laws K σ) (sch : Scheme K σ) (dt : K)
    (tick : σ → σ) (time : σ → ℕ) (P : ℕ → ℕ → K) : Prop :=
  ∀ (n : ℕ) (s s' : Sys K σ) (recs : List (Phys K)), Fresh inp ext m s.ph →
    runSteps (Asm.asm inp m ext) laws sch dt tick n s = .ok (recs, s') → s'.ph.logs = s.ph.logs →
    recs.length = n ∧
    |volume inp ext (system inp ext s.ph) s'.ph - volume inp ext (system inp ext s.ph) s.ph
        - (((List.range n).map fun i => precipitation inp P (time s.hid + i)).sum
          - basinArea inp * (recs.map (outletDischarge (Asm.asm inp m ext))).sum
          - (recs.map (evaporated inp ext m)).sum
          + (recs.map (supplied inp ext m (endless inp ext s.ph))).sum
          + (exchangedVolume inp ext (system inp ext s.ph) s'.ph - exchangedVolume inp ext (system inp ext s.ph) s.ph))|
      ≤ n * prec * totalArea inp ext (system inp ext s.ph)

end HB.Spec
