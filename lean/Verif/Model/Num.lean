import Mathlib.Algebra.Order.Field.Basic
import Mathlib.Algebra.Order.AbsoluteValue.Basic
import Mathlib.Tactic.Ring
import Mathlib.Tactic.Linarith
import Mathlib.Tactic.FieldSimp
import Mathlib.Tactic.NormNum
import Mathlib.Tactic.Positivity
import Mathlib.Tactic.Set
import Mathlib.Tactic.LinearCombination

/-!
# Numeric tolerance policy

Model of `core/src/base/NumericConstants.h`.  Doubles are elements of an arbitrary linearly
ordered field `K` (no rounding, no NaN, no infinities): see DESIGN.md, trusted base.
-/

namespace HB

variable {K : Type*} [Field K] [LinearOrder K] [IsStrictOrderedRing K]

/-- `EPSILON_D` (NumericConstants.h:21): machine epsilon of a double, 2^-52. -/
def epsD : K := 1 / 2 ^ 52

/-- `EPSILON_F` (NumericConstants.h:27): machine epsilon of a float, 2^-23. -/
def epsF : K := 1 / 2 ^ 23

/-- `PRECISION` (NumericConstants.h:34): the decimal literal 1e-8 (its rounding to the nearest
double is not modelled). -/
def prec : K := 1 / 10 ^ 8

/-- `TOLERANCE_LOOSE` (NumericConstants.h:41): 1e-4. -/
def tolLoose : K := 1 / 10 ^ 4

/-- `NearlyEqual` (NumericConstants.h:51-53). -/
def nearlyEqual (a b tol : K) : Bool := decide (|a - b| ≤ tol)

/-- `NearlyZero` (NumericConstants.h:62-64). -/
def nearlyZero (v tol : K) : Bool := decide (|v| ≤ tol)

/-- `GreaterThan` (NumericConstants.h:74-76). -/
def greaterThan (a b tol : K) : Bool := decide (a > b + tol)

/-- `LessThan` (NumericConstants.h:86-88). -/
def lessThan (a b tol : K) : Bool := decide (a < b - tol)

/-- `GreaterThanOrEqual` (NumericConstants.h:98-100). -/
def greaterThanOrEqual (a b tol : K) : Bool := decide (a ≥ b - tol)

/-- `LessThanOrEqual` (NumericConstants.h:110-112). -/
def lessThanOrEqual (a b tol : K) : Bool := decide (a ≤ b + tol)

theorem epsD_pos : (0 : K) < epsD := by unfold epsD; positivity
theorem epsD_nonneg : (0 : K) ≤ epsD := epsD_pos.le
theorem prec_pos : (0 : K) < prec := by unfold prec; positivity
theorem prec_nonneg : (0 : K) ≤ prec := prec_pos.le
theorem tolLoose_pos : (0 : K) < tolLoose := by unfold tolLoose; positivity
theorem epsD_lt_prec : (epsD : K) < prec := by
  unfold epsD prec
  rw [div_lt_div_iff₀ (by positivity) (by positivity)]
  norm_num

end HB
