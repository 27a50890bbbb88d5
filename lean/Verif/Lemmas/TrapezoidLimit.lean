import Mathlib.MeasureTheory.Integral.IntervalIntegral.Basic
import Mathlib.MeasureTheory.Integral.DominatedConvergence
import Mathlib.MeasureTheory.Measure.Lebesgue.Basic
import Mathlib.MeasureTheory.Constructions.BorelSpace.Order
import Mathlib.MeasureTheory.Function.Floor
import Mathlib.Tactic.Linarith
import Mathlib.Tactic.Positivity
import Mathlib.Tactic.FieldSimp

/-
Trapezoid sums of samples on finer and finer grids tend to the integral of their limit.
-/

noncomputable section

namespace AMAT

open MeasureTheory Filter Topology

/-- The mean of the two samples around the time `s`. -/
def stepAt (q : ℕ → ℝ) (dt s : ℝ) : ℝ := (q ⌊s / dt⌋₊ + q (⌊s / dt⌋₊ + 1)) / 2

theorem stepAt_measurable (q : ℕ → ℝ) (dt : ℝ) : Measurable (stepAt q dt) := by
  have : stepAt q dt = (fun j : ℕ => (q j + q (j + 1)) / 2) ∘ (fun s => ⌊s / dt⌋₊) := rfl
  rw [this]
  exact measurable_from_top.comp (Nat.measurable_floor.comp (measurable_id.div_const dt))

theorem stepAt_cell (q : ℕ → ℝ) {dt : ℝ} (hdt : 0 < dt) (j : ℕ) {s : ℝ} (h0 : j * dt ≤ s) (h1 : s < (j + 1 : ℕ) * dt) :
    stepAt q dt s = (q j + q (j + 1)) / 2 := by
  have : ⌊s / dt⌋₊ = j := by
    rw [Nat.floor_eq_iff (div_nonneg (le_trans (by positivity) h0) hdt.le), le_div_iff₀ hdt, div_lt_iff₀ hdt]
    push_cast at h1
    exact ⟨h0, h1⟩
  unfold stepAt
  rw [this]

theorem integral_cell (q : ℕ → ℝ) {dt : ℝ} (hdt : 0 < dt) (j : ℕ) :
    IntervalIntegrable (stepAt q dt) volume (j * dt) ((j + 1 : ℕ) * dt) ∧
    ∫ s in (j * dt)..((j + 1 : ℕ) * dt), stepAt q dt s = dt * (q j + q (j + 1)) / 2 := by
  have hle : (j : ℝ) * dt ≤ (j + 1 : ℕ) * dt := by push_cast; nlinarith
  have hae : ∀ᵐ s ∂volume, s ∈ Set.uIoc ((j : ℝ) * dt) ((j + 1 : ℕ) * dt) → stepAt q dt s = (q j + q (j + 1)) / 2 := by
    have h0 : ∀ᵐ s ∂(volume : Measure ℝ), s ≠ ((j + 1 : ℕ) : ℝ) * dt := by
      rw [ae_iff]
      simp
    filter_upwards [h0] with s hs hmem
    rw [Set.uIoc_of_le hle] at hmem
    exact stepAt_cell q hdt j hmem.1.le (lt_of_le_of_ne hmem.2 hs)
  constructor
  · refine (intervalIntegrable_const (c := (q j + q (j + 1)) / 2)).congr_ae ?_
    rw [EventuallyEq, ae_restrict_iff' measurableSet_uIoc]
    filter_upwards [hae] with s hs hmem
    exact (hs hmem).symm
  · rw [intervalIntegral.integral_congr_ae hae, intervalIntegral.integral_const, smul_eq_mul]
    push_cast
    ring

/-- A trapezoid sum on an equidistant grid is the integral of a step function. -/
theorem trapezoid_eq_integral (q : ℕ → ℝ) {dt : ℝ} (hdt : 0 < dt) (k : ℕ) :
    ∑ j ∈ Finset.range k, dt * (q j + q (j + 1)) / 2 = ∫ s in (0:ℝ)..(k * dt), stepAt q dt s := by
  have := intervalIntegral.sum_integral_adjacent_intervals (a := fun j : ℕ => (j : ℝ) * dt) (n := k) (μ := volume)
    (f := stepAt q dt) (fun j _ => (integral_cell q hdt j).1)
  simp only [Nat.cast_zero, zero_mul] at this
  rw [← this]
  exact Finset.sum_congr rfl fun j _ => (integral_cell q hdt j).2.symm

/-- Trapezoid sums with steps tending to zero, of bounded samples that tend to `φ` almost everywhere, tend to the integral
of `φ`. -/
theorem trapezoid_limit (φ : ℝ → ℝ) (M T : ℝ) (dt : ℕ → ℝ) (hdt : ∀ n, 0 < dt n) (hlim : Tendsto dt atTop (𝓝 0))
    (q : ℕ → ℕ → ℝ) (k : ℕ → ℕ) (hT : 0 ≤ T) (hk : Tendsto (fun n => k n * dt n) atTop (𝓝 T))
    (hM : ∀ᶠ n in atTop, ∀ j ≤ k n, |q n j| ≤ M)
    (hq : ∀ᵐ s ∂(volume : Measure ℝ), s ∈ Set.Ioo 0 T → ∀ j : ℕ → ℕ, (∀ᶠ n in atTop, j n ≤ k n) →
      Tendsto (fun n => j n * dt n) atTop (𝓝 s) → Tendsto (fun n => q n (j n)) atTop (𝓝 (φ s))) :
    Tendsto (fun n => ∑ j ∈ Finset.range (k n), dt n * (q n j + q n (j + 1)) / 2) atTop (𝓝 (∫ s in (0:ℝ)..T, φ s)) := by
  have hbig : ∀ᶠ n in atTop, k n * dt n ≤ T + 1 := (hk.eventually (gt_mem_nhds (by linarith))).mono fun n h => h.le
  have hM0 : 0 ≤ M := by
    obtain ⟨n, hn⟩ := hM.exists
    exact (abs_nonneg _).trans (hn 0 (Nat.zero_le _))
  have key : Tendsto (fun n => ∫ s in Set.Ioc (0:ℝ) (T + 1), (Set.Ioo 0 (k n * dt n)).indicator (stepAt (q n) (dt n)) s)
      atTop (𝓝 (∫ s in Set.Ioc (0:ℝ) (T + 1), (Set.Ioo 0 T).indicator φ s)) := by
    refine tendsto_integral_filter_of_dominated_convergence (fun _ => M) (Eventually.of_forall fun n => ?_) ?_ ?_ ?_
    · exact ((stepAt_measurable (q n) (dt n)).indicator measurableSet_Ioo).aestronglyMeasurable
    · filter_upwards [hM] with n hn
      refine ae_of_all _ fun s => ?_
      by_cases hs : s ∈ Set.Ioo 0 (k n * dt n)
      · rw [Set.indicator_of_mem hs]
        have hj : ⌊s / dt n⌋₊ < k n := by
          rw [Nat.floor_lt (div_nonneg hs.1.le (hdt n).le), div_lt_iff₀ (hdt n)]
          exact hs.2
        have a1 := abs_le.mp (hn _ hj.le)
        have a2 := abs_le.mp (hn (⌊s / dt n⌋₊ + 1) hj)
        rw [Real.norm_eq_abs, stepAt, abs_le]
        constructor <;> linarith
      · rw [Set.indicator_of_notMem hs, norm_zero]
        exact hM0
    · exact integrable_const M
    · have h0 : ∀ᵐ s ∂(volume : Measure ℝ), s ≠ T := by
        rw [ae_iff]
        simp
      refine ae_restrict_of_ae ?_
      filter_upwards [hq, h0] with s hs hsT
      by_cases hin : s ∈ Set.Ioo 0 T
      · rw [Set.indicator_of_mem hin]
        have hev : ∀ᶠ n in atTop, s < k n * dt n := hk.eventually (lt_mem_nhds hin.2)
        have hj : ∀ᶠ n in atTop, ⌊s / dt n⌋₊ < k n := by
          filter_upwards [hev] with n hn
          rw [Nat.floor_lt (div_nonneg hin.1.le (hdt n).le), div_lt_iff₀ (hdt n)]
          exact hn
        have f1 : ∀ n, (⌊s / dt n⌋₊ : ℝ) * dt n ≤ s := fun n => by
          rw [← le_div_iff₀ (hdt n)]
          exact Nat.floor_le (div_nonneg hin.1.le (hdt n).le)
        have f2 : ∀ n, s ≤ (⌊s / dt n⌋₊ : ℝ) * dt n + dt n := fun n => by
          have := Nat.lt_floor_add_one (s / dt n)
          rw [div_lt_iff₀ (hdt n)] at this
          linarith
        have t1 : Tendsto (fun n => (⌊s / dt n⌋₊ : ℝ) * dt n) atTop (𝓝 s) := by
          refine tendsto_of_tendsto_of_tendsto_of_le_of_le (g := fun n => s - dt n) ?_ tendsto_const_nhds (fun n => ?_) f1
          · simpa using tendsto_const_nhds.sub hlim
          · have := f2 n
            simp only
            linarith
        have t2 : Tendsto (fun n => ((⌊s / dt n⌋₊ + 1 : ℕ) : ℝ) * dt n) atTop (𝓝 s) := by
          have := t1.add hlim
          rw [add_zero] at this
          refine this.congr fun n => ?_
          push_cast; ring
        have l1 := hs hin (fun n => ⌊s / dt n⌋₊) (hj.mono fun n h => h.le) t1
        have l2 := hs hin (fun n => ⌊s / dt n⌋₊ + 1) hj t2
        have l3 := (l1.add l2).div_const 2
        rw [add_self_div_two] at l3
        refine l3.congr' ?_
        filter_upwards [hev] with n hn
        rw [Set.indicator_of_mem (show s ∈ Set.Ioo 0 (k n * dt n) from ⟨hin.1, hn⟩)]
        rfl
      · rw [Set.indicator_of_notMem hin]
        refine tendsto_const_nhds.congr' ?_
        by_cases hs0 : 0 < s
        · have hTs : T < s := lt_of_le_of_ne (not_lt.mp fun h => hin ⟨hs0, h⟩) hsT.symm
          filter_upwards [hk.eventually (gt_mem_nhds hTs)] with n hn
          rw [Set.indicator_of_notMem fun h => absurd h.2 (not_lt.mpr hn.le)]
        · exact Eventually.of_forall fun n => by
            change (0:ℝ) = (Set.Ioo 0 (k n * dt n)).indicator (stepAt (q n) (dt n)) s
            rw [Set.indicator_of_notMem fun h => absurd h.1 hs0]
  have e2 : ∀ (g : ℝ → ℝ) (b : ℝ), 0 ≤ b → b ≤ T + 1 →
      ∫ s in Set.Ioc (0:ℝ) (T + 1), (Set.Ioo 0 b).indicator g s = ∫ s in (0:ℝ)..b, g s := by
    intro g b hb hbT
    rw [setIntegral_indicator measurableSet_Ioo, intervalIntegral.integral_of_le hb, integral_Ioc_eq_integral_Ioo]
    congr 2
    ext s
    simp only [Set.mem_inter_iff, Set.mem_Ioc, Set.mem_Ioo]
    constructor
    · exact fun h => h.2
    · exact fun h => ⟨⟨h.1, by linarith [h.2]⟩, h⟩
  rw [e2 φ T hT (by linarith)] at key
  refine key.congr' ?_
  filter_upwards [hbig] with n hn
  rw [e2 _ _ (by have := hdt n; positivity) hn, trapezoid_eq_integral (q n) (hdt n) (k n)]

end AMAT
