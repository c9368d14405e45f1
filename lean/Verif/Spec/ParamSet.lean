import Verif.Model.ParamSet

/-!
# What a parameter set should guarantee
-/

namespace HB.Spec

open HB.PSet

section
variable {K : Type} [Field K] [LinearOrder K]

/-- A value within its range: each number between the bounds declared for its position. -/
def ValIn (lo hi : Option (Val K)) : Val K → Prop
  | .num x => (∀ l, lo = some (.num l) → l ≤ x) ∧ ∀ h, hi = some (.num h) → x ≤ h
  | .list xs => ∀ ls hs, lo = some (.list ls) → hi = some (.list hs) → ∀ (i : ℕ) (l h x : K), ls[i]? = some l → hs[i]? = some h →
      xs[i]? = some x → l ≤ x ∧ x ≤ h

/-- The bounds are in order. -/
def Ordered (lo hi : Option (Val K)) : Prop :=
  (∀ l h, lo = some (.num l) → hi = some (.num h) → l ≤ h) ∧
  ∀ ls hs, lo = some (.list ls) → hi = some (.list hs) → ∀ (i : ℕ) (l h : K), ls[i]? = some l → hs[i]? = some h → l ≤ h

/-- The same text up to the case of letters. -/
def SameText (a b : String) : Prop := a.toList.map Char.toLower = b.toList.map Char.toLower

/-- The constraint between two numbers, as written. -/
def Relation (op : String) (x y : K) : Prop :=
  (op = ">" ∨ op = "gt" → y < x) ∧ (op = ">=" ∨ op = "ge" → y ≤ x) ∧
  (op = "<" ∨ op = "lt" → x < y) ∧ (op = "<=" ∨ op = "le" → x ≤ y)

/-- The number a name stands for. -/
def Stands (S : ParamSet K) (name : String) (x : K) : Prop := S.get name = .ok (some (.num x))

/-- Every constraint between parameters that exist holds. -/
def Respects (S : ParamSet K) : Prop :=
  ∀ c ∈ S.constraints, ∀ x y, Stands S c.1 x → Stands S c.2.2 y → Relation c.2.1 x y

/-- Nothing but values changed. -/
def OnlyValues (S S' : ParamSet K) : Prop :=
  S'.constraints = S.constraints ∧ S'.params.length = S.params.length ∧
  ∀ (j : ℕ) (p p' : Param K), S.params[j]? = some p → S'.params[j]? = some p' → p' = { p with value := p'.value }

/-- A history of accepted definitions, starting from an empty set; aliases are lists of names without colon. -/
inductive Defined : ParamSet K → Prop
  | empty : Defined ⟨[], []⟩
  | define (S S' : ParamSet K) (component name : String) (l : List String) (lo hi default : Option (Val K)) (mandatory : Bool) :
      Defined S → (∀ a ∈ l, ':' ∉ a.toList) → S.define component name (.names l) lo hi default mandatory = .ok S' → Defined S'
  | plain (S S' : ParamSet K) (component name : String) (lo hi default : Option (Val K)) (mandatory : Bool) :
      Defined S → S.define component name .none lo hi default mandatory = .ok S' → Defined S'
  | data (S S' : ParamSet K) (name : String) (value lo hi : Option (Val K)) : Defined S → ':' ∉ name.toList →
      S.addData name value lo hi = .ok S' → Defined S'
  | constrain (S : ParamSet K) (a op b : String) : Defined S → Defined (S.constrain a op b)

/-- A history of a parameter set with the range checks left on: definitions whose default value is in range, values given with
or without adaptation (also when the call ends in an exception), random draws, new names, constraints. -/
inductive Checked : ParamSet K → Prop
  | empty : Checked ⟨[], []⟩
  | define (S S' : ParamSet K) (component name : String) (a : Aliases) (lo hi default : Option (Val K)) (mandatory : Bool) :
      Checked S → (∀ v, default = some v → ValIn lo hi v) → S.define component name a lo hi default mandatory = .ok S' →
      Checked S'
  | data (S S' : ParamSet K) (name : String) (value lo hi : Option (Val K)) : Checked S →
      (∀ v, value = some v → ValIn lo hi v) → S.addData name value lo hi = .ok S' → Checked S'
  | rename (S S' : ParamSet K) (parameter : String) (l : List String) : Checked S → S.addAliases parameter l = .ok S' → Checked S'
  | transform (S S' : ParamSet K) (parameter : String) (f : (K → K) × (K → K)) : Checked S →
      S.setTransform parameter f = .ok S' → Checked S'
  | set (S : ParamSet K) (adapt transformed : Bool) (kvs : List (String × Val K)) : Checked S →
      Checked (S.setValues true adapt transformed kvs).1
  | random (S : ParamSet K) (rnd : ℕ → ℕ → ℕ → K) (keys : List String) : Checked S →
      (∀ i k j, 0 ≤ rnd i k j ∧ rnd i k j ≤ 1) → Checked (S.setRandom rnd keys).1
  | constrain (S : ParamSet K) (a op b : String) : Checked S → Checked (S.constrain a op b)
  | unconstrain (S : ParamSet K) (a op b : String) : Checked S → Checked (S.unconstrain a op b)

end
end HB.Spec
