import Verif.Model.Periods
import Mathlib.Algebra.Order.Field.Basic
import Mathlib.Algebra.BigOperators.Intervals
import Mathlib.Algebra.BigOperators.Ring.Finset
import Mathlib.Algebra.BigOperators.Group.List.Basic

/-!
# Simulated glacier mass balance (Python side, on recorded series of the core)

`GlacierMassBalanceObservations` (python/src/hydrobricks/evaluation/glacier_mass_balance.py), the weighting of the recorded melt
(core/src/fluxes/FluxToBrickInstantaneous.cpp, core/src/base/ModelBuilder.cpp).

Simplifications.  Recorded series are functions of the number of the day, `none` where NaN.  Reading of files is an input.
-/

namespace HB.MassBalance

open HB.Periods (Err day plusYears)

section
variable {K : Type}

/-- A target (79-84, 533-560): period, value, and elevation band. -/
structure Target (K : Type) where
  t0 : ℤ
  t1 : ℤ
  value : K
  band : Option (K × K)

/-- `_add_targets` (533-560): rows without a value or a date are dropped. -/
def addTargets (rows : List (Option ℤ × Option ℤ × Option K × Option (K × K))) : List (Target K) :=
  rows.filterMap fun r => r.1.bind fun a => r.2.1.bind fun b => r.2.2.1.map fun v => ⟨a, b, v, r.2.2.2⟩

/-- `restrict_to_period` (493-517). -/
def restrict (start stop : Option ℤ) (l : List (Target K)) : List (Target K) :=
  l.filter fun t => !((start.any fun s => decide (t.t0 < s)) || (stop.any fun e => decide (e < t.t1)))

/-- `_period_from_year` (580-604): from the first of the month to the day before it a year later. -/
def periodFromYear (year month : ℤ) : ℤ × ℤ :=
  let t0 := sysDays year month 1
  (t0 * day, (plusYears t0 1 - 1) * day)

/-- `_date_index` (670-675) on the daily axis of `n` days from `start`: the nearest day, the later one of two. -/
def dateIndex (start : ℤ) (n : ℕ) (date : ℤ) : Option ℕ :=
  if date < start ∨ start + day * ((n : ℤ) - 1) < date then none else some ((date - start + day / 2) / day).toNat

/-- The recorded series of a glacier cover in a unit: snow of its snowpack, ice melt, and area (fraction times area of the unit). -/
structure Cover (K : Type) where
  snow : ℕ → Option K
  melt : ℕ → Option K
  area : ℕ → Option K

structure Unit' (K : Type) where
  elev : K
  covers : List (Cover K)

end

section
variable {K : Type} [Field K] [LinearOrder K]

/-- `np.nansum` of two series. -/
def nanAdd (a b : Option K) : Option K := some (a.getD 0 + b.getD 0)

/-- Snow and melt of the glacier covers together (437-450): the series of the only cover, or `nansum`. -/
def together : List (ℕ → Option K) → ℕ → Option K
  | [], _ => none
  | s :: r, t => r.foldl (fun acc x => nanAdd acc (x t)) (s t)

/-- Area of the glacier covers together (450): a sum, NaN if one of them is. -/
def areaTogether : List (ℕ → Option K) → ℕ → Option K
  | [], _ => none
  | s :: r, t => r.foldl (fun acc x => acc.bind fun a => (x t).map fun b => a + b) (s t)

/-- `balance_unit` (463-466). -/
def Unit'.balance (u : Unit' K) (i0 i1 : ℕ) : Option K :=
  (together (u.covers.map Cover.snow) i1).bind fun a => (together (u.covers.map Cover.snow) i0).map fun b =>
    a - b - ∑ k ∈ Finset.range (i1 - i0), (together (u.covers.map Cover.melt) (i0 + 1 + k)).getD 0

/-- `weight` (468-473): `np.nanmean` of the areas over the period. -/
def Unit'.weight (u : Unit' K) (i0 i1 : ℕ) : Option K :=
  let l := (List.range (i1 + 1 - i0)).filterMap fun k => areaTogether (u.covers.map Cover.area) (i0 + k)
  if l.isEmpty then none else some (l.sum / (l.length : K))

/-- The mask (475-480), with the balance and the weight of the units kept. -/
def Unit'.kept (band : Option (K × K)) (i0 i1 : ℕ) (u : Unit' K) : Option (K × K) :=
  (u.balance i0 i1).bind fun b => (u.weight i0 i1).bind fun w =>
    if 0 < w ∧ (∀ x ∈ band, x.1 ≤ u.elev ∧ u.elev < x.2) then some (b, w) else none

/-- `simulated` for one target (456-484). -/
def simulatedOne (start : ℤ) (n : ℕ) (us : List (Unit' K)) (t : Target K) : Option K :=
  match dateIndex start n t.t0, dateIndex start n t.t1 with
  | some i0, some i1 =>
    if i1 ≤ i0 then none
    else
      let l := us.filterMap (Unit'.kept t.band i0 i1)
      if l.isEmpty then none else some ((l.map fun e => e.1 * e.2).sum / (l.map Prod.snd).sum)
  | _, _ => none

/-- `simulated` (399-486). -/
def simulated (start : ℤ) (n : ℕ) (us : List (Unit' K)) (ts : List (Target K)) : List (Option K) := ts.map (simulatedOne start n us)

/-- `observed` (376-378). -/
def observed (ts : List (Target K)) : List K := ts.map Target.value

/-- The fraction of a flux from a glacier cover to a storage of the sub-basin (core/src/base/ModelBuilder.cpp:531-536,
core/src/bricks/LandCover.cpp:27-36, core/src/fluxes/Flux.h:151-153). -/
def fluxFraction (unitArea basinArea coverFraction : K) : K := unitArea / basinArea * coverFraction

/-- The amount of such a flux, which is what is recorded as the output of the melt (core/src/fluxes/FluxToBrickInstantaneous.cpp:22-29,
core/src/processes/ProcessMelt.cpp:22-26), for a melt in millimetres over the glacier cover. -/
def recordedMelt (fraction melt : K) : K := if fraction ≠ 1 then melt * fraction else melt

end
end HB.MassBalance
