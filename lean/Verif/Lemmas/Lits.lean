import Mathlib.Data.Real.Basic
import Mathlib.Tactic.NormNum

/-
Decimal literals of the source rewritten as fractions (proof engineering only).
-/

namespace AMAT.Lits

theorem l00 : (0.0 : ℝ) = 0 := by norm_num
theorem l05 : (0.5 : ℝ) = 1 / 2 := by norm_num
theorem l10 : (1.0 : ℝ) = 1 := by norm_num
theorem l15 : (1.5 : ℝ) = 3 / 2 := by norm_num
theorem l20 : (2.0 : ℝ) = 2 := by norm_num
theorem l30 : (3.0 : ℝ) = 3 := by norm_num
theorem l50 : (5.0 : ℝ) = 5 := by norm_num
theorem l1e2 : (1e-2 : ℝ) = 1 / 100 := by norm_num

end AMAT.Lits
