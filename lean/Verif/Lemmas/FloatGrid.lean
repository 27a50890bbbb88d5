import Mathlib.Algebra.Order.Archimedean.Basic
import Mathlib.Algebra.Order.Round
import Mathlib.Tactic.Linarith
import Mathlib.Tactic.FieldSimp
import Mathlib.Tactic.Positivity
import Verif.Lemmas.FloatSearch
import Verif.Model.FloatGrid

/-
Rounding to double precision: relative error and values.
-/

noncomputable section

namespace AMAT.binary64

open AMAT

/-- The relative error of rounding a number in the normal range. -/
theorem rel_error {rnd : ℝ → ℝ} (hr : RoundsTo binary64 rnd) {x : ℝ} (hx : (2:ℝ) ^ (-1022 : ℤ) ≤ |x|) :
    |rnd x - x| ≤ 2⁻¹ ^ 53 * |x| := by
  have hx0 : 0 < |x| := lt_of_lt_of_le (two_zpow_pos _) hx
  obtain ⟨j, hj1, hj2⟩ := exists_mem_Ico_zpow hx0 (by norm_num : (1:ℝ) < 2)
  have hjl : -1022 ≤ j := by
    have : (2:ℝ) ^ (-1022 : ℤ) < (2:ℝ) ^ (j + 1) := lt_of_le_of_lt hx hj2
    have := (zpow_lt_zpow_iff_right₀ (by norm_num : (1:ℝ) < 2)).mp this
    omega
  set s : ℝ := (2:ℝ) ^ (j - 52) with hs
  have hsp : 0 < s := two_zpow_pos _
  have hjs : (2:ℝ) ^ j = 2 ^ 52 * s := by
    rw [hs, show (j:ℤ) = (j - 52) + 52 by ring, two_zpow_add]
    norm_num; ring
  have hjs2 : (2:ℝ) ^ (j + 1) = 2 ^ 53 * s := by
    rw [two_zpow_add, hjs]; norm_num; ring
  have hmem : ((round (x / s) : ℤ) : ℝ) * s ∈ binary64 := by
    refine grid_mem ?_ (by omega)
    have h1 : |x / s| < 2 ^ 53 := by
      rw [abs_div, abs_of_pos hsp, div_lt_iff₀ hsp, ← hjs2]; exact hj2
    have h2 := abs_sub_round (x / s)
    have h3 : |((round (x / s) : ℤ) : ℝ)| < 2 ^ 53 + 1 := by
      have := abs_sub_abs_le_abs_sub ((round (x / s) : ℤ) : ℝ) (x / s)
      rw [abs_sub_comm] at this
      linarith
    have h4 : |round (x / s)| < 2 ^ 53 + 1 := by exact_mod_cast h3
    omega
  have h1 := hr.nearest x _ hmem
  rw [abs_sub_comm]
  refine h1.trans ?_
  have h2 := abs_sub_round (x / s)
  have h3 : |x - ((round (x / s) : ℤ) : ℝ) * s| = |x / s - round (x / s)| * s := by
    rw [← abs_of_pos hsp, ← abs_mul, abs_of_pos hsp]
    congr 1
    field_simp
  rw [h3]
  have h4 : s ≤ 2⁻¹ ^ 52 * |x| := by
    rw [hjs] at hj1
    calc s = 2⁻¹ ^ 52 * (2 ^ 52 * s) := by norm_num; ring
      _ ≤ 2⁻¹ ^ 52 * |x| := by gcongr
  calc |x / s - round (x / s)| * s ≤ 1 / 2 * (2⁻¹ ^ 52 * |x|) := by gcongr
    _ = 2⁻¹ ^ 53 * |x| := by norm_num; ring

/-- The rounded value is the double `m·2^e` when the number is less than half a unit in the last place away from it. -/
theorem round_eq {rnd : ℝ → ℝ} (hr : RoundsTo binary64 rnd) (m e : ℤ) {x : ℝ} (h1 : 2 ^ 52 < m) (h2 : m < 2 ^ 53)
    (he : -1074 ≤ e) (hx : |x - (m : ℝ) * (2:ℝ) ^ e| < (2:ℝ) ^ e / 2) : rnd x = (m : ℝ) * (2:ℝ) ^ e := by
  have hp := two_zpow_pos e
  by_contra hne
  have hy : (m : ℝ) * (2:ℝ) ^ e ∈ binary64 := ⟨m, e, by rw [abs_of_pos (by linarith)]; exact h2, he, rfl⟩
  have hn := hr.nearest x _ hy
  have hd : |rnd x - (m : ℝ) * (2:ℝ) ^ e| < (2:ℝ) ^ e := by
    have := abs_sub_le (rnd x) x ((m : ℝ) * (2:ℝ) ^ e)
    rw [abs_sub_comm (rnd x) x] at this
    linarith
  have hbig : (2:ℝ) ^ (e + 52) = 2 ^ 52 * (2:ℝ) ^ e := by rw [two_zpow_add]; norm_num; ring
  have hm1 : (2 ^ 52 + 1 : ℝ) ≤ m := by exact_mod_cast h1
  have hd' := abs_lt.mp hd
  have hz : (2:ℝ) ^ (e + 52) ≤ |rnd x| := by
    rw [hbig]
    refine le_trans ?_ (le_abs_self _)
    nlinarith
  have hyy : (2:ℝ) ^ (e + 52) ≤ |(m : ℝ) * (2:ℝ) ^ e| := by
    rw [hbig]
    refine le_trans ?_ (le_abs_self _)
    nlinarith
  have := gap (hr.mem x) hy hz hyy hne
  rw [show e + 52 - 52 = e by ring, abs_sub_comm] at this
  linarith

end AMAT.binary64
