import Mathlib.Data.Int.Log
import Mathlib.Data.Rat.Floor
import Mathlib.Algebra.Order.Floor.Ring
import Verif.Model.Num

/-!
# Double rounding

IEEE-754 binary64 rounding to nearest, ties to even, as a function on rationals.  Overflow, underflow (subnormals), NaN
and signed zeros are not modelled (the clock and tolerance computations of this code base stay far from them).
-/

set_option linter.unusedSectionVars false

namespace HB

/-- Nearest integer, ties to even. -/
def rne (x : ℚ) : ℤ :=
  if x - ⌊x⌋ < 1 / 2 then ⌊x⌋ else if 1 / 2 < x - ⌊x⌋ then ⌊x⌋ + 1 else if ⌊x⌋ % 2 = 0 then ⌊x⌋ else ⌊x⌋ + 1

/-- Exponent of the unit in the last place of the double nearest to `x`. -/
def ulpExp (x : ℚ) : ℤ := Int.log 2 |x| - 52

/-- The double nearest to `x`. -/
def fl64 (x : ℚ) : ℚ := if x = 0 then 0 else rne (x / 2 ^ ulpExp x) * 2 ^ ulpExp x

theorem rne_int (n : ℤ) : rne n = n := by
  unfold rne
  simp

theorem rne_err (x : ℚ) : |(rne x : ℚ) - x| ≤ 1 / 2 := by
  have h1 := Int.floor_le x
  have h2 := Int.lt_floor_add_one x
  unfold rne
  split_ifs <;> rw [abs_le] <;> push_cast <;> constructor <;> linarith

/-- Relative error of one rounding. -/
theorem fl64_err (x : ℚ) : |fl64 x - x| ≤ |x| / 2 ^ 53 := by
  unfold fl64
  split
  · rename_i h; simp [h]
  · rename_i h
    set e := ulpExp x with he
    have hpos : (0 : ℚ) < 2 ^ e := zpow_pos (by norm_num) e
    have h1 : (rne (x / 2 ^ e) : ℚ) * 2 ^ e - x = ((rne (x / 2 ^ e) : ℚ) - x / 2 ^ e) * 2 ^ e := by
      field_simp
    rw [h1, abs_mul, abs_of_pos hpos]
    have h2 := rne_err (x / 2 ^ e)
    have h3 : (2 : ℚ) ^ e * 2 ^ (52 : ℤ) ≤ |x| := by
      rw [← zpow_add₀ (by norm_num)]
      have : e + 52 = Int.log 2 |x| := by rw [he, ulpExp]; ring
      rw [this]
      have := Int.zpow_log_le_self (b := 2) (r := |x|) (by norm_num) (abs_pos.2 h)
      simpa using this
    calc |(rne (x / 2 ^ e) : ℚ) - x / 2 ^ e| * 2 ^ e ≤ 1 / 2 * 2 ^ e := by gcongr
      _ = (2 ^ e * 2 ^ (52 : ℤ)) / 2 ^ 53 := by norm_num; ring
      _ ≤ |x| / 2 ^ 53 := by gcongr

/-- Integers below 2^53 are doubles. -/
theorem fl64_int (n : ℤ) (h : |n| < 2 ^ 53) : fl64 n = n := by
  unfold fl64
  split
  · rename_i h0; simp [h0]
  · rename_i h0
    have hn : n ≠ 0 := by exact_mod_cast h0
    set e := ulpExp (n : ℚ) with he
    have hle : e ≤ 0 := by
      have : Int.log 2 |(n : ℚ)| < 53 := by
        rw [← Int.lt_zpow_iff_log_lt (by norm_num) (by exact_mod_cast abs_pos.2 hn)]
        have : ((|n| : ℤ) : ℚ) < ((2 ^ 53 : ℤ) : ℚ) := by exact_mod_cast h
        rw [← Int.cast_abs]
        refine lt_of_lt_of_le this (le_of_eq ?_)
        norm_num
      rw [he, ulpExp]; omega
    obtain ⟨k, hk⟩ : ∃ k : ℕ, e = -k := ⟨e.natAbs, by omega⟩
    have : (n : ℚ) / 2 ^ e = ((n * 2 ^ k : ℤ) : ℚ) := by
      rw [hk]; push_cast; rw [zpow_neg, zpow_natCast]; field_simp
    rw [this, rne_int, hk]
    push_cast
    rw [zpow_neg, zpow_natCast]; field_simp

end HB
