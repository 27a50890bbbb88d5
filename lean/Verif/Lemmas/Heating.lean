import Mathlib.Analysis.SpecialFunctions.Pow.Real
import Mathlib.Tactic.NormNum
import Mathlib.Tactic.Positivity
import Mathlib.Tactic.Linarith
import Verif.Model.Heating
import Verif.Lemmas.Interp

/-! Lemmas about the heating correlations. -/

noncomputable section

open Classical Real

namespace AMAT

/-- The speed factor of the Venus radiative correlation. -/
def venusG (v : ℝ) : ℝ :=
  if v < 8000 then 3.33E-34 * v ^ (10.0:ℝ)
  else if 8000 ≤ v ∧ v < 10000 then 1.22E-16 * v ^ (5.5:ℝ)
  else 3.07E-48 * v ^ (13.4:ℝ)

theorem venusG_nonneg {v : ℝ} (hv : 0 ≤ v) : 0 ≤ venusG v := by
  unfold venusG; split_ifs <;> positivity

theorem venus_jump1 : (3.33E-34:ℝ) * 8000 ^ (10.0:ℝ) ≤ 1.22E-16 * 8000 ^ (5.5:ℝ) := by
  have h : (8000:ℝ) ^ (10.0:ℝ) = 8000 ^ (5.5:ℝ) * (8000 ^ (4:ℕ) * √8000) := by
    rw [Real.sqrt_eq_rpow, ← Real.rpow_natCast, ← Real.rpow_add (by norm_num), ← Real.rpow_add (by norm_num)]
    norm_num
  have hs : √8000 ≤ 89.443 := by
    rw [Real.sqrt_le_left (by norm_num)]; norm_num
  have hp : (0:ℝ) < 8000 ^ (5.5:ℝ) := by positivity
  rw [h]
  have : (3.33E-34:ℝ) * (8000 ^ (4:ℕ) * √8000) ≤ 1.22E-16 := by
    calc (3.33E-34:ℝ) * (8000 ^ (4:ℕ) * √8000) ≤ 3.33E-34 * (8000 ^ (4:ℕ) * 89.443) := by gcongr
      _ ≤ 1.22E-16 := by norm_num
  calc (3.33E-34:ℝ) * (8000 ^ (5.5:ℝ) * (8000 ^ (4:ℕ) * √8000))
      = (3.33E-34 * (8000 ^ (4:ℕ) * √8000)) * 8000 ^ (5.5:ℝ) := by ring
    _ ≤ 1.22E-16 * 8000 ^ (5.5:ℝ) := by gcongr

theorem venus_jump2 : (1.22E-16:ℝ) * 10000 ^ (5.5:ℝ) ≤ 3.07E-48 * 10000 ^ (13.4:ℝ) := by
  have h : (10000:ℝ) ^ (13.4:ℝ) = 10000 ^ (5.5:ℝ) * (10000 ^ (7:ℕ) * 10000 ^ (0.9:ℝ)) := by
    rw [← Real.rpow_natCast, ← Real.rpow_add (by norm_num), ← Real.rpow_add (by norm_num)]
    norm_num
  have hs : (3975:ℝ) ≤ 10000 ^ (0.9:ℝ) := by
    have h1 : ((3975:ℝ) ^ (10:ℕ)) ^ (0.1:ℝ) ≤ ((10000:ℝ) ^ (9:ℕ)) ^ (0.1:ℝ) := by
      apply Real.rpow_le_rpow (by positivity) (by norm_num) (by norm_num)
    rw [← Real.rpow_natCast, ← Real.rpow_natCast, ← Real.rpow_mul (by norm_num), ← Real.rpow_mul (by norm_num)] at h1
    norm_num at h1 ⊢
    exact h1
  have hp : (0:ℝ) < 10000 ^ (5.5:ℝ) := by positivity
  rw [h]
  have : (1.22E-16:ℝ) ≤ 3.07E-48 * (10000 ^ (7:ℕ) * 10000 ^ (0.9:ℝ)) := by
    calc (1.22E-16:ℝ) ≤ 3.07E-48 * (10000 ^ (7:ℕ) * 3975) := by norm_num
      _ ≤ _ := by gcongr
  calc (1.22E-16:ℝ) * 10000 ^ (5.5:ℝ)
      ≤ (3.07E-48 * (10000 ^ (7:ℕ) * 10000 ^ (0.9:ℝ))) * 10000 ^ (5.5:ℝ) := by gcongr
    _ = _ := by ring

theorem venusG_mono {v w : ℝ} (hv : 0 ≤ v) (hvw : v ≤ w) : venusG v ≤ venusG w := by
  have hw : 0 ≤ w := hv.trans hvw
  have p10 : ∀ {a b : ℝ}, 0 ≤ a → a ≤ b → (3.33E-34:ℝ) * a ^ (10.0:ℝ) ≤ 3.33E-34 * b ^ (10.0:ℝ) := by
    intro a b ha hab; gcongr
  have p55 : ∀ {a b : ℝ}, 0 ≤ a → a ≤ b → (1.22E-16:ℝ) * a ^ (5.5:ℝ) ≤ 1.22E-16 * b ^ (5.5:ℝ) := by
    intro a b ha hab; gcongr
  have p134 : ∀ {a b : ℝ}, 0 ≤ a → a ≤ b → (3.07E-48:ℝ) * a ^ (13.4:ℝ) ≤ 3.07E-48 * b ^ (13.4:ℝ) := by
    intro a b ha hab; gcongr
  unfold venusG
  by_cases h1 : v < 8000
  · rw [if_pos h1]
    by_cases h2 : w < 8000
    · rw [if_pos h2]; exact p10 hv hvw
    · rw [if_neg h2]
      push Not at h2
      by_cases h3 : 8000 ≤ w ∧ w < 10000
      · rw [if_pos h3]
        exact (p10 hv h1.le).trans (venus_jump1.trans (p55 (by norm_num) h2))
      · rw [if_neg h3]
        have h4 : 10000 ≤ w := by
          by_contra hc; push Not at hc; exact h3 ⟨h2, hc⟩
        exact (p10 hv h1.le).trans (venus_jump1.trans ((p55 (by norm_num) (by norm_num)).trans
          (venus_jump2.trans (p134 (by norm_num) h4))))
  · rw [if_neg h1]
    push Not at h1
    have h2 : ¬ w < 8000 := by linarith
    rw [if_neg h2]
    by_cases h3 : 8000 ≤ v ∧ v < 10000
    · rw [if_pos h3]
      by_cases h4 : 8000 ≤ w ∧ w < 10000
      · rw [if_pos h4]; exact p55 hv hvw
      · rw [if_neg h4]
        have h5 : 10000 ≤ w := by
          by_contra hc; push Not at hc; exact h4 ⟨by linarith, hc⟩
        exact (p55 hv h3.2.le).trans (venus_jump2.trans (p134 (by norm_num) h5))
    · rw [if_neg h3]
      have h5 : 10000 ≤ v := by
        by_contra hc; push Not at hc; exact h3 ⟨h1, hc⟩
      have h4 : ¬ (8000 ≤ w ∧ w < 10000) := by rintro ⟨_, h⟩; linarith
      rw [if_neg h4]; exact p134 hv hvw

theorem earthNodes_sorted : earthRadNodes.Pairwise (fun p q => p.1 < q.1) := by
  unfold earthRadNodes; norm_num

theorem earthNodes_mono : earthRadNodes.Pairwise (fun p q => p.2 ≤ q.2) := by
  unfold earthRadNodes; norm_num

theorem earthFV_inside {v : ℝ} (h1 : 9000 ≤ v) (h2 : v ≤ 16000) : earthFV v = interpSeg earthRadNodes v := by
  apply interpSorted_inside (a := (9000, 1.5)) (b := (16000, 2040)) rfl rfl _ _ h1 h2

theorem earthFV_low {v : ℝ} (h : v < 9000) : earthFV v = 0 := by
  simp [earthFV, interpSorted, earthRadNodes, h]

theorem earthFV_high {v : ℝ} (h : 16000 < v) : earthFV v = 2040 := by
  have : ¬ v < 9000 := by linarith
  simp [earthFV, interpSorted, earthRadNodes, h, this]

theorem earthFV_mono {v w : ℝ} (h : v ≤ w) : earthFV v ≤ earthFV w := by
  have seg : ∀ a b, a ≤ b → b ≤ 16000 → interpSeg earthRadNodes a ≤ interpSeg earthRadNodes b := by
    intro a b hab hb
    apply interpSeg_monotone _ earthNodes_sorted earthNodes_mono _ _ hab
    intro q hq
    have : q = (16000, 2040) := by simpa [earthRadNodes] using hq.symm
    subst this; exact hb
  have s0 : interpSeg earthRadNodes 9000 = 1.5 := by norm_num [interpSeg, earthRadNodes]
  have s1 : interpSeg earthRadNodes 16000 = 2040 := by
    norm_num [interpSeg, earthRadNodes]
    simp
  rcases lt_or_ge v 9000 with hv | hv
  · rw [earthFV_low hv]
    rcases lt_or_ge w 9000 with hw | hw
    · rw [earthFV_low hw]
    · rcases le_or_gt w 16000 with hw2 | hw2
      · rw [earthFV_inside hw hw2]
        have := seg 9000 w hw hw2
        rw [s0] at this; norm_num at this; linarith
      · rw [earthFV_high hw2]; norm_num
  · rcases le_or_gt w 16000 with hw2 | hw2
    · rw [earthFV_inside hv (h.trans hw2), earthFV_inside (hv.trans h) hw2]
      exact seg v w h hw2
    · rw [earthFV_high hw2]
      rcases le_or_gt v 16000 with hv2 | hv2
      · rw [earthFV_inside hv hv2, ← s1]; exact seg v 16000 hv2 le_rfl
      · rw [earthFV_high hv2]

theorem earthFV_nonneg (v : ℝ) : 0 ≤ earthFV v := by
  have h1 : earthFV (min v 0) = 0 := earthFV_low (by have := min_le_right v 0; linarith)
  rw [← h1]; exact earthFV_mono (min_le_left v 0)

end AMAT
