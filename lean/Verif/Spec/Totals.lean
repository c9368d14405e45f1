import Verif.Model.Totals

/-!
# What the totals mean

Stated on the recorded tables only.
-/

namespace HB.Spec

open Finset

/-- The component a label is about: the text before the first colon. -/
def component (label : String) : List Char := label.toList.takeWhile (· ≠ ':')

/-- The component is the land cover itself, its snowpack or its canopy. -/
def Owns (cover : String) (label : String) : Prop :=
  component label = cover.toList ∨ component label = cover.toList ++ "_snowpack".toList ∨
    component label = cover.toList ++ "_canopy".toList

/-- Sane land cover names: distinct, without colon, none of them named like the snowpack or the canopy of another. -/
structure CoverNames (covers : List String) : Prop where
  nodup : covers.Nodup
  colon : ∀ c ∈ covers, ':' ∉ c.toList
  clash : ∀ c ∈ covers, ∀ c' ∈ covers, c.toList ≠ c'.toList ++ "_snowpack".toList ∧ c.toList ≠ c'.toList ++ "_canopy".toList

section
variable {K : Type} [Field K]

/-- The share of a hydro unit a label is about: the recorded fraction of its land cover (nothing where the cover is
absent), or the whole unit when it belongs to no land cover. -/
structure IsWeight (T : LogTable K) (w : String → ℕ → ℕ → K) : Prop where
  cover : ∀ j c, T.fracLabels[j]? = some c → ∀ label, Owns c label → ':' ∈ label.toList →
    ∀ t u, w label t u = (T.fracs j t u).getD 0
  whole : ∀ label, (∀ c ∈ T.fracLabels, ¬ Owns c label) → ∀ t u, w label t u = 1

/-- Mean over the catchment, by area. -/
def mean (T : LogTable K) (f : ℕ → K) : K :=
  (∑ u ∈ range T.units, T.areas u * f u) / ∑ u ∈ range T.units, T.areas u

/-- What a label of the hydro units brings to the catchment at a row. -/
def unitAmount (T : LogTable K) (w : String → ℕ → ℕ → K) (i t : ℕ) : K :=
  mean T fun u => w (T.unitLabels.getD i "") t u * (T.unitVals i t u).getD 0

/-- The label is the content `tag` of a component: its last part. -/
def IsContent (label tag : String) : Prop := ∃ name : String, label = name ++ tag

end
end HB.Spec
