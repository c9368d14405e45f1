import Verif.Model.Results

/-!
# What reading a results file should give

Stated on what was recorded and on the returned arrays.
-/

namespace HB.Spec

open Finset HB.Results

section
variable {K : Type} [Field K]

/-- The recorded rows with a date in a period, in order. -/
def rowsIn (R : Recorded K) (s e : ℤ) : List ℕ :=
  (List.range R.tab.rows).filter fun t => decide (s ≤ R.date t ∧ R.date t ≤ e)

/-- The array gives, for each index of the leading axes `pre`, the series of the cells `P index row` over the requested dates:
all of them, the one of a single date (then without a time axis), or those of the period. -/
def Shows (R : Recorded K) (pre : List ℕ) (P : List ℕ → ℕ → Option K → Prop) (A : Arr K) : Option ℤ → Option ℤ → Prop
  | none, _ => A.shape = pre ++ [R.tab.rows] ∧
    ∀ idx, List.Forall₂ (· < ·) idx pre → ∀ t < R.tab.rows, P idx t (A.val (idx ++ [t]))
  | some s, none => A.shape = pre ∧
    ∀ idx, List.Forall₂ (· < ·) idx pre → ∀ t < R.tab.rows, R.date t = s → P idx t (A.val idx)
  | some s, some e => A.shape = pre ++ [(rowsIn R s e).length] ∧
    ∀ idx, List.Forall₂ (· < ·) idx pre → ∀ k t, (rowsIn R s e)[k]? = some t → P idx t (A.val (idx ++ [k]))

/-- One row per date, in order. -/
def Dated (R : Recorded K) : Prop := ∀ a b, a < b → b < R.tab.rows → R.date a < R.date b

/-- The requested date was simulated (nothing is required for a period). -/
def Available (R : Recorded K) : Option ℤ → Option ℤ → Prop
  | some s, none => ∃ t < R.tab.rows, R.date t = s
  | _, _ => True

/-- Mean of the known values, weighted by the known areas; unknown when there is no area to average over. -/
def IsMean {ι : Type} (S : Finset ι) (area val : ι → Option K) (r : Option K) : Prop :=
  let known := S.filter fun k => (area k).isSome ∧ (val k).isSome
  let total := ∑ k ∈ known, (area k).getD 0
  (total = 0 → r = none) ∧
    (total ≠ 0 → ∃ x, r = some x ∧ x * total = ∑ k ∈ known, (area k).getD 0 * (val k).getD 0)

/-- The label of the snow on a land cover. -/
def snowLabel (cover : String) : String := cover ++ "_snowpack:snow_content"

/-- The snow on a land cover: what was recorded under its label, nothing for a cover without snowpack. -/
structure IsSnow (R : Recorded K) (snow : ℕ → ℕ → ℕ → Option K) : Prop where
  recorded : ∀ j c i, R.tab.fracLabels[j]? = some c → R.tab.unitLabels[i]? = some (snowLabel c) →
    ∀ t u, snow j t u = R.tab.unitVals i t u
  bare : ∀ j c, R.tab.fracLabels[j]? = some c → snowLabel c ∉ R.tab.unitLabels → ∀ t u, snow j t u = some 0

/-- The area of a land cover in a unit. -/
def coverArea (R : Recorded K) (j t u : ℕ) : Option K := (R.tab.fracs j t u).map fun x => R.tab.areas u * x

/-- Names that can be told apart: no label twice, no cover twice, and no label that merely ends like the snow label of a cover
without snowpack. -/
structure ClearNames (R : Recorded K) : Prop where
  labels : R.tab.unitLabels.Nodup
  covers : R.tab.fracLabels.Nodup
  stray : ∀ c ∈ R.tab.fracLabels, snowLabel c ∉ R.tab.unitLabels → ∀ l ∈ R.tab.unitLabels, ¬ ∃ name, l = name ++ snowLabel c

/-- The unit is entirely covered at a row: the fractions it has add up to one, and the snow of these covers is known. -/
structure WholeCover (R : Recorded K) (snow : ℕ → ℕ → ℕ → Option K) (t u : ℕ) : Prop where
  whole : ∑ j ∈ range R.tab.fracLabels.length, (R.tab.fracs j t u).getD 0 = 1
  known : ∀ j < R.tab.fracLabels.length, (R.tab.fracs j t u).isSome → (snow j t u).isSome

/-- Every recorded snow content is the one of the snowpack of a land cover. -/
def OnlyCoverSnow (R : Recorded K) : Prop :=
  ∀ l ∈ R.tab.unitLabels, containsStr l ":snow_content" = true → ∃ c ∈ R.tab.fracLabels, l = snowLabel c

end
end HB.Spec
