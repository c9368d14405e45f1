import Verif.Model.SnowObs

/-! # Snow cover of a unit, and mean of the valid pixels of a unit -/

namespace HB.Spec.SnowObs

variable {K : Type} [Field K] [LinearOrder K]

/-- A part of a unit: the fraction of its area and the water equivalent of its snow. -/
structure Part (K : Type) where
  fraction : K
  swe : K

/-- Share of the part covered by snow: linear up to `full`. -/
def Part.share (full : K) (p : Part K) : K := if full ≤ p.swe then 1 else if p.swe ≤ 0 then 0 else p.swe / full

/-- Area of the parts. -/
def area (ps : List (Part K)) : K := (ps.map Part.fraction).sum

/-- Share of the area of the parts covered by snow. -/
def cover (full : K) (ps : List (Part K)) : K := (ps.map fun p => p.fraction * p.share full).sum / area ps

/-- Is the value good: not the missing value, and inside the bounds. -/
def Good (nodata vmin vmax : Option K) (v : K) : Prop := nodata ≠ some v ∧ (∀ m, vmin = some m → m ≤ v) ∧ ∀ m, vmax = some m → v ≤ m

/-- The pixels of a unit, by number. -/
def pixels (arr : List (Option ℤ)) (uid : ℤ) : Finset ℕ := (Finset.range arr.length).filter fun p => arr[p]? = some (some uid)

/-- The pixels of a unit with a good value. -/
noncomputable def goodPixels (nodata vmin vmax : Option K) (arr : List (Option ℤ)) (vals : List (Option K)) (uid : ℤ) : Finset ℕ :=
  open Classical in (pixels arr uid).filter fun p => ∃ v, vals[p]? = some (some v) ∧ Good nodata vmin vmax v

/-- The value of a pixel. -/
def value (vals : List (Option K)) (p : ℕ) : K := (vals[p]?.bind id).getD 0

/-- Mean value of some pixels. -/
noncomputable def mean (vals : List (Option K)) (s : Finset ℕ) : K := (∑ p ∈ s, value vals p) / (s.card : K)

end HB.Spec.SnowObs
