import Verif.Model.Periods

/-! # What it means to compare two series on a period -/

namespace HB.Spec.Periods

/-- The value of a series at an instant. -/
def valueAt {K : Type} (time : List ℤ) (xs : List K) (t : ℤ) : Option K := ((time.zip xs).find? fun e => decide (e.1 = t)).map Prod.snd

/-- The daily instants of a run from `start` to `stop` (whole days from the start, `stop` included). -/
def Day (start stop t : ℤ) : Prop := ∃ k : ℕ, t = start + 86400 * (k : ℤ) ∧ t ≤ stop

/-- `ss` and `os` are the simulated and observed values of exactly the days of the run that lie in `[a, b]`, in order. -/
def SameDays {K : Type} (start stop : ℤ) (sim : List K) (otime : List ℤ) (obs : List K) (a b : ℤ) (ss os : List K) : Prop :=
  ∃ days : List ℤ, days.Pairwise (· < ·) ∧ (∀ t, t ∈ days ↔ Day start stop t ∧ a ≤ t ∧ t ≤ b) ∧
    (∀ (k : ℕ) (x : K), ss[k]? = some x → ∃ (t : ℤ) (i : ℕ), days[k]? = some t ∧ t = start + 86400 * (i : ℤ) ∧ sim[i]? = some x) ∧
    os.map some = days.map (valueAt otime obs) ∧ ss.length = days.length

/-- Dated observations: one instant per value, in increasing order, at the time of day of the run. -/
structure Dated {K : Type} (start : ℤ) (otime : List ℤ) (obs : List K) : Prop where
  lengths : otime.length = obs.length
  increasing : otime.Pairwise (· < ·)
  daily : ∀ t ∈ otime, 86400 ∣ t - start

end HB.Spec.Periods
