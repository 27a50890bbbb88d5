import Mathlib.MeasureTheory.Integral.IntervalIntegral.FundThmCalculus
import Mathlib.Analysis.SpecialFunctions.Integrals.Basic
import Verif.Model.Secant
import Verif.Props.TimedOrbit

/-
Property C56, completed: Kepler's equation is solved by the secant method of `scipy.optimize.newton`.  A value it returns
is a root up to the stated tolerance, and for eccentricities up to about 0.73 it returns.
-/

noncomputable section

open Real

namespace AMAT.Props

open Real AMAT AMAT.Spec

/-- Mean of the cosine between two points. -/
def meanCos (x y : ℝ) : ℝ := ∫ s in (0:ℝ)..1, cos (y + s * (x - y))

theorem sin_sub_eq (x y : ℝ) : sin x - sin y = (x - y) * meanCos x y := by
  have h : ∀ s ∈ Set.uIcc (0:ℝ) 1, HasDerivAt (fun s => sin (y + s * (x - y))) (cos (y + s * (x - y)) * (x - y)) s := by
    intro s _
    have : HasDerivAt (fun s => y + s * (x - y)) (x - y) s := by
      simpa using ((hasDerivAt_id s).mul_const (x - y)).const_add y
    exact this.sin
  have := intervalIntegral.integral_eq_sub_of_hasDerivAt h (by apply Continuous.intervalIntegrable; fun_prop)
  rw [intervalIntegral.integral_mul_const] at this
  simp only [one_mul, zero_mul, add_zero, add_sub_cancel] at this
  rw [← this, meanCos, mul_comm]

theorem abs_meanCos_le (x y : ℝ) : |meanCos x y| ≤ 1 := by
  have := intervalIntegral.norm_integral_le_of_norm_le_const (a := (0:ℝ)) (b := 1) (C := 1)
    (f := fun s => cos (y + s * (x - y))) fun s _ => by rw [norm_eq_abs]; exact abs_cos_le_one _
  simpa [meanCos, norm_eq_abs] using this

theorem meanCos_comm (x y : ℝ) : meanCos x y = meanCos y x := by
  rcases eq_or_ne x y with h | h
  · rw [h]
  · have h1 := sin_sub_eq x y
    have h2 := sin_sub_eq y x
    have : (x - y) * meanCos x y = (x - y) * meanCos y x := by linarith
    exact mul_left_cancel₀ (sub_ne_zero.mpr h) this

theorem meanCos_lipschitz (x y z : ℝ) : |meanCos x y - meanCos x z| ≤ |y - z| / 2 := by
  have hc : ∀ w : ℝ, Continuous fun s : ℝ => cos (w + s * (x - w)) := fun w => by fun_prop
  have e : meanCos x y - meanCos x z = ∫ s in (0:ℝ)..1, (cos (y + s * (x - y)) - cos (z + s * (x - z))) := by
    rw [intervalIntegral.integral_sub ((hc y).intervalIntegrable _ _) ((hc z).intervalIntegrable _ _)]
    rfl
  rw [e]
  have h := intervalIntegral.norm_integral_le_of_norm_le (μ := MeasureTheory.volume) (a := (0:ℝ)) (b := 1)
    (f := fun s => cos (y + s * (x - y)) - cos (z + s * (x - z))) (g := fun s => (1 - s) * |y - z|) (by norm_num)
    (by
      refine Filter.Eventually.of_forall fun s hs => ?_
      rw [norm_eq_abs]
      have h1 := abs_cos_sub_cos_le (y + s * (x - y)) (z + s * (x - z))
      refine h1.trans ?_
      have : y + s * (x - y) - (z + s * (x - z)) = (1 - s) * (y - z) := by ring
      rw [this, abs_mul, abs_of_nonneg (by linarith [hs.2])])
    (by apply Continuous.intervalIntegrable; fun_prop)
  rw [norm_eq_abs] at h
  refine h.trans (le_of_eq ?_)
  rw [intervalIntegral.integral_mul_const, intervalIntegral.integral_sub (by simp) (by simp)]
  simp
  ring

/-- Kepler's equation. -/
theorem kepler_diff (e M x y : ℝ) :
    (x - e * sin x - M) - (y - e * sin y - M) = (x - y) * (1 - e * meanCos x y) := by
  have := sin_sub_eq x y
  have h : (x - e * sin x - M) - (y - e * sin y - M) = (x - y) - e * (sin x - sin y) := by ring
  rw [h, this]; ring

theorem slope_bounds {e : ℝ} (x y : ℝ) : 1 - |e| ≤ 1 - e * meanCos x y := by
  have h : e * meanCos x y ≤ |e| := by
    refine (le_abs_self _).trans ?_
    rw [abs_mul]
    exact mul_le_of_le_one_right (abs_nonneg _) (abs_meanCos_le x y)
  linarith

theorem kepler_ne {e : ℝ} (he : |e| < 1) (M : ℝ) {x y : ℝ} (h : x ≠ y) :
    x - e * sin x - M ≠ y - e * sin y - M := by
  intro h0
  have h1 := kepler_diff e M x y
  rw [h0, sub_self] at h1
  rcases mul_eq_zero.mp h1.symm with h2 | h2
  · exact h (sub_eq_zero.mp h2)
  · have := slope_bounds (e := e) x y
    linarith

/-- Both forms of the next point are the intersection of the secant with the axis. -/
theorem secantNext_eq {p0 p1 q0 q1 : ℝ} (h : q1 ≠ q0) :
    (secantNext p0 p1 q0 q1 - p1) * (q1 - q0) = -q1 * (p1 - p0) := by
  have hd : q1 - q0 ≠ 0 := sub_ne_zero.mpr h
  unfold secantNext
  split_ifs with hlt
  · have hq : q1 ≠ 0 := abs_pos.mp ((abs_nonneg _).trans_lt hlt)
    have h1 : 1 - q0 / q1 ≠ 0 := by
      rw [ne_eq, sub_eq_zero, eq_comm, div_eq_one_iff_eq hq]; exact fun h' => h h'.symm
    have e : 1 - q0 / q1 = (q1 - q0) / q1 := by field_simp
    rw [e]
    field_simp
    ring
  · have hq : q0 ≠ 0 := by
      intro h0
      rw [h0, abs_zero, not_lt] at hlt
      exact h (by rw [abs_nonpos_iff.mp hlt, h0])
    have h1 : q0 - q1 ≠ 0 := sub_ne_zero.mpr (Ne.symm h)
    have e : 1 - q1 / q0 = (q0 - q1) / q0 := by field_simp
    rw [e]
    field_simp
    ring

/-- The secant step for Kepler's equation, relative to any root. -/
theorem kepler_step {e : ℝ} (he : |e| < 1) (M : ℝ) {p0 p1 : ℝ} (hne : p1 ≠ p0) {p : ℝ}
    (hp : p = secantNext p0 p1 (p0 - e * sin p0 - M) (p1 - e * sin p1 - M)) :
    (p - p1) * (1 - e * meanCos p1 p0) = -(p1 - e * sin p1 - M) := by
  have h := secantNext_eq (p0 := p0) (p1 := p1) (kepler_ne he M hne)
  rw [← hp, kepler_diff] at h
  have h0 : p1 - p0 ≠ 0 := sub_ne_zero.mpr hne
  refine mul_left_cancel₀ h0 ?_
  linarith

/-- A value returned by the loop: small residual. -/
theorem secantLoop_residual {e : ℝ} (he : |e| < 1) (M : ℝ) : ∀ (n : ℕ) (p0 p1 E : ℝ), p1 ≠ p0 →
    secantLoop (fun E => E - e * sin E - M) n p0 p1 = some E → |E - e * sin E - M| ≤ 2 * |e| * 1.48e-8 := by
  intro n
  induction n with
  | zero => intro p0 p1 E _ h; simp [secantLoop] at h
  | succ n ih =>
    intro p0 p1 E hne h
    rw [secantLoop] at h
    simp only [if_neg (kepler_ne he M hne)] at h
    set p := secantNext p0 p1 (p0 - e * sin p0 - M) (p1 - e * sin p1 - M) with hp
    have hstep := kepler_step he M hne hp
    split_ifs at h with hc
    · have hE : p = E := by simpa using h
      rw [← hE]
      have h1 := kepler_diff e M p p1
      have h2 : p - e * sin p - M = (p - p1) * (e * (meanCos p1 p0 - meanCos p p1)) := by linarith
      have h3 : |meanCos p1 p0 - meanCos p p1| ≤ 2 := by
        have := abs_meanCos_le p1 p0
        have := abs_meanCos_le p p1
        exact (abs_sub _ _).trans (by linarith)
      rw [h2, abs_mul, abs_mul]
      calc |p - p1| * (|e| * |meanCos p1 p0 - meanCos p p1|) ≤ 1.48e-8 * (|e| * 2) :=
            mul_le_mul hc (mul_le_mul_of_nonneg_left h3 (abs_nonneg _)) (by positivity) (by norm_num)
        _ = _ := by ring
    · refine ih p1 p E (fun h0 => hc ?_) h
      rw [h0, sub_self, abs_zero]
      norm_num

theorem secantStart_ne (x : ℝ) : secantStart x ≠ x ∧ |secantStart x - x| ≤ (|x| + 1) * 1e-4 := by
  unfold secantStart
  norm_num
  split_ifs with h
  · have hx : 0 ≤ x := by
      by_contra hn
      have := mul_neg_of_neg_of_pos (not_le.mp hn) (by norm_num : (0:ℝ) < 10001 / 10000)
      linarith
    refine ⟨by linarith, ?_⟩
    rw [abs_of_nonneg (by linarith), abs_of_nonneg hx]
    linarith
  · have hx : x < 0 := not_le.mp h
    refine ⟨by linarith, ?_⟩
    rw [abs_of_neg (by linarith), abs_of_neg hx]
    linarith

/-- C56: whatever `compute_E` returns satisfies Kepler's equation up to `2 e · 1.48e-8`, and lies within
`2 e · 1.48e-8 / (1 - e)` of the only exact solution. -/
theorem C56_eccentric_anomaly_accurate (e M E : ℝ) (he : |e| < 1) (h : computeE e M = some E) :
    |E - e * sin E - M| ≤ 2 * |e| * 1.48e-8 ∧
    ∃ E', E' - e * sin E' = M ∧ (∀ x, x - e * sin x = M → x = E') ∧ |E - E'| ≤ 2 * |e| * 1.48e-8 / (1 - |e|) := by
  have hres : |E - e * sin E - M| ≤ 2 * |e| * 1.48e-8 := by
    have hne := (secantStart_ne M).1
    unfold computeE scipyNewton at h
    simp only at h
    split_ifs at h
    · exact secantLoop_residual he M 50 _ _ E hne.symm h
    · exact secantLoop_residual he M 50 _ _ E hne h
  obtain ⟨h0, h1⟩ := abs_lt.mp he
  refine ⟨hres, ecc h0 h1 M, kep_ecc h0 h1 M, fun x hx => ?_, ?_⟩
  · rw [← hx]; exact (ecc_kep h0 h1 x).symm
  · set r := ecc h0 h1 M with hr
    have hk : r - e * sin r - M = 0 := by have := kep_ecc h0 h1 M; unfold kep at this; rw [hr]; linarith
    have hd := kepler_diff e M E r
    rw [hk, sub_zero] at hd
    rw [hd, abs_mul] at hres
    have hs := slope_bounds (e := e) E r
    have hpos : 0 < 1 - |e| := by linarith
    rw [le_div_iff₀ hpos]
    refine le_trans (mul_le_mul_of_nonneg_left ?_ (abs_nonneg _)) hres
    exact hs.trans (le_abs_self _)

/-- The error of the next point is the product of the two last errors, up to a factor. -/
theorem secant_error {e : ℝ} (he : |e| < 1) {M r : ℝ} (hr : r - e * sin r - M = 0) {p0 p1 : ℝ} (hne : p1 ≠ p0) :
    |secantNext p0 p1 (p0 - e * sin p0 - M) (p1 - e * sin p1 - M) - r|
      ≤ |e| / (2 * (1 - |e|)) * |p0 - r| * |p1 - r| := by
  set p := secantNext p0 p1 (p0 - e * sin p0 - M) (p1 - e * sin p1 - M) with hp
  have hstep := kepler_step he M hne hp
  have hd := kepler_diff e M p1 r
  rw [hr, sub_zero] at hd
  have hpos : 0 < 1 - |e| := by linarith
  have hs := slope_bounds (e := e) p1 p0
  have hs0 : 0 < 1 - e * meanCos p1 p0 := by linarith
  have key : (p - r) * (1 - e * meanCos p1 p0) = (p1 - r) * (e * (meanCos p1 r - meanCos p1 p0)) := by
    rw [hd] at hstep
    linear_combination hstep
  have habs : |p - r| * (1 - e * meanCos p1 p0) = |p1 - r| * (|e| * |meanCos p1 r - meanCos p1 p0|) := by
    rw [← abs_of_pos hs0, ← abs_mul, key, abs_mul, abs_mul]
  have hl := meanCos_lipschitz p1 r p0
  rw [abs_sub_comm r p0] at hl
  have h1 : |p - r| * (1 - |e|) ≤ |p1 - r| * (|e| * (|p0 - r| / 2)) := by
    calc |p - r| * (1 - |e|) ≤ |p - r| * (1 - e * meanCos p1 p0) := mul_le_mul_of_nonneg_left hs (abs_nonneg _)
      _ = _ := habs
      _ ≤ _ := mul_le_mul_of_nonneg_left (mul_le_mul_of_nonneg_left hl (abs_nonneg _)) (abs_nonneg _)
  have h2 : |e| / (2 * (1 - |e|)) * |p0 - r| * |p1 - r| = |p1 - r| * (|e| * (|p0 - r| / 2)) / (1 - |e|) := by
    field_simp
  rw [h2, le_div_iff₀ hpos]
  exact h1

/-- The loop stops when it starts close enough to the root for its number of iterations. -/
theorem secantLoop_stops {e : ℝ} (he : |e| < 1) {M r : ℝ} (hr : r - e * sin r - M = 0) : ∀ (n k : ℕ) (p0 p1 B a : ℝ),
    p1 ≠ p0 → |p0 - r| ≤ B → |p1 - r| ≤ B → |e| / (2 * (1 - |e|)) * B ≤ a → 0 ≤ a → a ≤ 1 →
    2 * (B * a ^ (2 ^ n - 1)) ≤ 1.48e-8 → 2 * n < k →
    ∃ E, secantLoop (fun E => E - e * sin E - M) k p0 p1 = some E := by
  have hK : 0 ≤ |e| / (2 * (1 - |e|)) := div_nonneg (abs_nonneg _) (by linarith)
  intro n
  induction n with
  | zero =>
    intro k p0 p1 B a hne h0 h1 ha ha0 ha1 hB hk
    obtain ⟨k, rfl⟩ : ∃ j, k = j + 1 := ⟨k - 1, by omega⟩
    rw [secantLoop]
    simp only [if_neg (kepler_ne he M hne)]
    have herr := secant_error he hr hne
    rw [if_pos]
    · exact ⟨_, rfl⟩
    · have h2 : |e| / (2 * (1 - |e|)) * |p0 - r| * |p1 - r| ≤ 1 * B :=
        mul_le_mul ((mul_le_mul_of_nonneg_left h0 hK).trans (ha.trans ha1)) h1 (abs_nonneg _) (by norm_num)
      have h3 := abs_sub_le (secantNext p0 p1 (p0 - e * sin p0 - M) (p1 - e * sin p1 - M)) r p1
      rw [abs_sub_comm r p1] at h3
      simp only [pow_zero, Nat.sub_self, mul_one] at hB
      linarith
  | succ n ih =>
    intro k p0 p1 B a hne h0 h1 ha ha0 ha1 hB hk
    obtain ⟨k, rfl⟩ : ∃ j, k = j + 1 + 1 := ⟨k - 2, by omega⟩
    have hB0 : 0 ≤ B := (abs_nonneg _).trans h0
    rw [secantLoop]
    simp only [if_neg (kepler_ne he M hne)]
    have herr := secant_error he hr hne
    set p := secantNext p0 p1 (p0 - e * sin p0 - M) (p1 - e * sin p1 - M) with hp
    have hpB : |p - r| ≤ a * B := herr.trans
      (mul_le_mul ((mul_le_mul_of_nonneg_left h0 hK).trans ha) h1 (abs_nonneg _) ha0)
    by_cases hc : |p - p1| ≤ 1.48e-8
    · rw [if_pos hc]; exact ⟨_, rfl⟩
    rw [if_neg hc]
    have hne' : p ≠ p1 := by
      intro h
      rw [h, sub_self, abs_zero] at hc
      norm_num at hc
    rw [secantLoop]
    simp only [if_neg (kepler_ne he M hne')]
    have herr' := secant_error he hr hne'
    set p' := secantNext p1 p (p1 - e * sin p1 - M) (p - e * sin p - M) with hp'
    have hpB' : |p' - r| ≤ a * B := by
      refine herr'.trans ?_
      have := mul_le_mul ((mul_le_mul_of_nonneg_left h1 hK).trans (ha.trans ha1)) hpB (abs_nonneg _)
        (by norm_num : (0:ℝ) ≤ 1)
      rwa [one_mul] at this
    by_cases hc' : |p' - p| ≤ 1.48e-8
    · rw [if_pos hc']; exact ⟨_, rfl⟩
    rw [if_neg hc']
    refine ih k p p' (a * B) (a ^ 2) ?_ hpB hpB' ?_ (sq_nonneg a) (pow_le_one₀ ha0 ha1) ?_ (by omega)
    · intro h
      rw [h, sub_self, abs_zero] at hc'
      norm_num at hc'
    · calc |e| / (2 * (1 - |e|)) * (a * B) = a * (|e| / (2 * (1 - |e|)) * B) := by ring
        _ ≤ a * a := mul_le_mul_of_nonneg_left ha ha0
        _ = a ^ 2 := (sq a).symm
    · have e1 : a * B * (a ^ 2) ^ (2 ^ n - 1) = B * a ^ (2 ^ (n + 1) - 1) := by
        have h2 : 2 ^ (n + 1) - 1 = 2 * (2 ^ n - 1) + 1 := by
          have := Nat.one_le_two_pow (n := n)
          rw [pow_succ]; omega
        rw [h2, ← pow_mul, pow_succ]; ring
      rw [e1]; exact hB

/-- C56: `compute_E` returns when the eccentricity is not too large for the mean anomaly; the condition holds for every
eccentricity up to 0.7 during the first two hundred revolutions. -/
theorem C56_eccentric_anomaly_returns (e M : ℝ) (he : |e| < 1) (hM : |M| ≤ 9999)
    (hc : |e| / (2 * (1 - |e|)) * (|e| + (|M| + 1) * 1e-4) ≤ 0.999) : ∃ E, computeE e M = some E := by
  obtain ⟨h0, h1⟩ := abs_lt.mp he
  set r := ecc h0 h1 M with hr
  have hk : r - e * sin r - M = 0 := by have := kep_ecc h0 h1 M; unfold kep at this; rw [hr]; linarith
  set B := |e| + (|M| + 1) * 1e-4 with hB
  have hM4 : (|M| + 1) * 1e-4 ≤ 1 := by norm_num; linarith
  have hM0 : (0:ℝ) ≤ (|M| + 1) * 1e-4 := by positivity
  have hB2 : B ≤ 2 := by linarith
  have hB0 : 0 ≤ B := by positivity
  have e0 : |M - r| ≤ |e| := by
    have : M - r = -(e * sin r) := by linarith
    rw [this, abs_neg, abs_mul]
    exact mul_le_of_le_one_right (abs_nonneg _) (abs_sin_le_one r)
  obtain ⟨hne, hst⟩ := secantStart_ne M
  have e1 : |secantStart M - r| ≤ B := by
    have := abs_sub_le (secantStart M) M r
    linarith
  have e0' : |M - r| ≤ B := by linarith
  have hfin : 2 * (B * (0.999 : ℝ) ^ (2 ^ 15 - 1)) ≤ 1.48e-8 := by
    have h2 : (0.999 : ℝ) ^ (2 ^ 15 - 1) ≤ 1e-9 := by
      have s0 : (0.999 : ℝ) ^ 50 ≤ 0.96 := by norm_num
      have s1 : (0.999 : ℝ) ^ (50 * 20) ≤ 1 / 2 := by
        rw [pow_mul]
        refine (pow_le_pow_left₀ (by positivity) s0 20).trans ?_
        norm_num
      have s2 : (0.999 : ℝ) ^ (1000 * 32) ≤ (1 / 2) ^ 32 := by
        rw [pow_mul]; exact pow_le_pow_left₀ (by positivity) s1 32
      have s3 : (0.999 : ℝ) ^ (2 ^ 15 - 1) ≤ (0.999 : ℝ) ^ (1000 * 32) :=
        pow_le_pow_of_le_one (by norm_num) (by norm_num) (by norm_num)
      refine s3.trans (s2.trans ?_)
      norm_num
    generalize (0.999 : ℝ) ^ (2 ^ 15 - 1) = y at h2
    have h3 : B * y ≤ 2 * 1e-9 := (mul_le_mul_of_nonneg_left h2 hB0).trans
      (mul_le_mul_of_nonneg_right hB2 (by norm_num))
    norm_num at h3 ⊢
    linarith
  unfold computeE scipyNewton
  simp only
  split_ifs
  · exact secantLoop_stops he hk 15 50 _ _ B 0.999 hne.symm e1 e0' hc (by norm_num) (by norm_num) hfin (by norm_num)
  · exact secantLoop_stops he hk 15 50 _ _ B 0.999 hne e0' e1 hc (by norm_num) (by norm_num) hfin (by norm_num)

/-- Case for `C56_eccentric_anomaly_accurate` and `C56_eccentric_anomaly_returns`: every eccentricity up to 0.7, mean
anomalies up to 1400. -/
example (e M : ℝ) (h0 : 0 ≤ e) (h1 : e ≤ 0.7) (hM : |M| ≤ 1400) :
    ∃ E E', computeE e M = some E ∧ E' - e * sin E' = M ∧ |E - E'| < 7e-8 := by
  have he : |e| = e := abs_of_nonneg h0
  norm_num at h1
  have hlt : |e| < 1 := by rw [he]; linarith
  obtain ⟨E, hE⟩ := C56_eccentric_anomaly_returns e M hlt (by linarith) (by
    rw [he]
    have hd : e / (2 * (1 - e)) ≤ 7 / 6 := by
      rw [div_le_iff₀ (by linarith)]; linarith
    have hs : e + (|M| + 1) * 1e-4 ≤ 0.8401 := by norm_num; linarith
    have := mul_le_mul hd hs (by positivity) (by norm_num)
    refine this.trans ?_
    norm_num)
  obtain ⟨-, E', h2, -, h4⟩ := C56_eccentric_anomaly_accurate e M E hlt hE
  refine ⟨E, E', hE, h2, h4.trans_lt ?_⟩
  rw [he, div_lt_iff₀ (by linarith)]
  norm_num
  linarith

/-- The positions of `compute_timed_orbit_trajectory` with the secant method SciPy runs: returned exactly when `compute_E`
returns. -/
theorem timed_orbit_run (name : String) (v : V3) (rp psi apo : ℝ) (hEI : Option ℝ) (A : Approach) (Hv : V3)
    (hA : Approach.init name v rp psi false hEI = .ok A) (hv : v ≠ 0) (hrp : 0 < rp) (hH : A.hVec = some Hv)
    (hne : Hv.x ≠ 0 ∨ Hv.y ≠ 0) (hra : 0 < A.P.RP + apo * 1000) :
    ∃ (el : Elements) (per : ℝ) (R U : ℝ → V3), (PropOrbiter.mk A apo).elements = some el ∧
      (PropOrbiter.mk A apo).period el = some per ∧ 0 < per ∧
      el.e * (rp + (A.P.RP + apo * 1000)) = A.P.RP + apo * 1000 - rp ∧
      Spec.TwoBodyMotion A.P.GM R U ∧ A.rpVec = some (R 0) ∧ V3.dot (R 0) (U 0) = 0 ∧
      Spec.energy A.P.GM (R 0) (U 0) = -(A.P.GM / (rp + (A.P.RP + apo * 1000))) ∧
      (∀ t X, (PropOrbiter.mk A apo).timedPosSecant el t = some X →
        ∃ t', |t' - t| ≤ 2 * |el.e| * 1.48e-8 * per / (2 * π) ∧ X = R t') ∧
      |el.e| < 1 ∧
      ∀ t E, computeE el.e (2 * π * t / per) = some E →
        ∃ X, (PropOrbiter.mk A apo).timedPosSecant el t = some X := by
  obtain ⟨el, per, R, U, h1, h2, h3, h4, h5, h6, h7, -, -, -, -, h12⟩ :=
    C56_timed_orbit_partial name v rp psi apo hEI A Hv hA hv hrp hH hne hra
  have hel : (-1 < el.e ∧ el.e < 1) ∧ 0 < el.a ∧ el.a * (1 - el.e) = rp ∧ el.a * (1 + el.e) = A.P.RP + apo * 1000 := by
    obtain ⟨V, e, bb, h, d, u, w, H, hn, hHw⟩ := approach_facts hA hv hrp hH hne
    obtain ⟨P, hP, hAP, rfl, rfl, rfl, -⟩ := approach_init_inv hA
    obtain ⟨el', hel, K, k1, k2, k3⟩ := prop_ellipse H hn hra rfl
    rw [h1] at hel
    rw [Option.some.inj hel]
    exact ⟨⟨K.e0, K.e1⟩, K.apos, k1, k2⟩
  obtain ⟨⟨e0, e1⟩, ha, k1, k2⟩ := hel
  have he : |el.e| < 1 := abs_lt.mpr ⟨e0, e1⟩
  -- the run that solves the equation at `t` by the secant method and elsewhere exactly
  have run : ∀ t E, computeE el.e (2 * π * t / per) = some E →
      ∃ t', |t' - t| ≤ 2 * |el.e| * 1.48e-8 * per / (2 * π) ∧
        (PropOrbiter.mk A apo).timedPosSecant el t = some (R t') := by
    intro t E hE
    classical
    obtain ⟨t', ht', hX⟩ := h12 (fun _ M => if M = 2 * π * t / per then E else ecc e0 e1 M) (2 * |el.e| * 1.48e-8) (by
      intro M
      by_cases hM : M = 2 * π * t / per
      · simp only [hM, if_true]
        exact (C56_eccentric_anomaly_accurate el.e _ E he hE).1
      · simp only [if_neg hM]
        have := kep_ecc e0 e1 M
        unfold kep at this
        rw [this, sub_self, abs_zero]
        positivity) t
    refine ⟨t', ht', ?_⟩
    rw [← hX]
    unfold PropOrbiter.timedPosSecant PropOrbiter.timedPos
    simp only [h2, bind, Option.bind, npDiv_some h3.ne', hE, if_true]
  refine ⟨el, per, R, U, h1, h2, h3, ?_, h4, h5, h6, h7, ?_, he, ?_⟩
  · rw [← k2, ← k1]; ring
  · intro t X hX
    cases hE : computeE el.e (2 * π * t / per) with
    | none =>
      unfold PropOrbiter.timedPosSecant at hX
      simp [h2, bind, Option.bind, npDiv_some h3.ne', hE] at hX
    | some E =>
      obtain ⟨t', ht', h⟩ := run t E hE
      rw [h] at hX
      exact ⟨t', ht', (Option.some.inj hX).symm⟩
  · intro t E hE
    obtain ⟨t', -, h⟩ := run t E hE
    exact ⟨_, h⟩

/-- C56: the positions of `compute_timed_orbit_trajectory` with the secant method SciPy runs.  A position that is returned
is that of the two-body motion at a time within `2 e · 1.48e-8 / 2π` revolutions of the requested one, and positions are
returned when the eccentricity is not too large for the number of revolutions. -/
theorem C56_timed_orbit_secant (name : String) (v : V3) (rp psi apo : ℝ) (hEI : Option ℝ) (A : Approach) (Hv : V3)
    (hA : Approach.init name v rp psi false hEI = .ok A) (hv : v ≠ 0) (hrp : 0 < rp) (hH : A.hVec = some Hv)
    (hne : Hv.x ≠ 0 ∨ Hv.y ≠ 0) (hra : 0 < A.P.RP + apo * 1000) :
    ∃ (el : Elements) (per : ℝ) (R U : ℝ → V3), (PropOrbiter.mk A apo).elements = some el ∧
      (PropOrbiter.mk A apo).period el = some per ∧ 0 < per ∧
      el.e * (rp + (A.P.RP + apo * 1000)) = A.P.RP + apo * 1000 - rp ∧
      Spec.TwoBodyMotion A.P.GM R U ∧ A.rpVec = some (R 0) ∧ V3.dot (R 0) (U 0) = 0 ∧
      Spec.energy A.P.GM (R 0) (U 0) = -(A.P.GM / (rp + (A.P.RP + apo * 1000))) ∧
      (∀ t X, (PropOrbiter.mk A apo).timedPosSecant el t = some X →
        ∃ t', |t' - t| ≤ 2 * |el.e| * 1.48e-8 * per / (2 * π) ∧ X = R t') ∧
      ∀ t, |2 * π * t / per| ≤ 9999 →
        |el.e| / (2 * (1 - |el.e|)) * (|el.e| + (|2 * π * t / per| + 1) * 1e-4) ≤ 0.999 →
        ∃ X, (PropOrbiter.mk A apo).timedPosSecant el t = some X := by
  obtain ⟨el, per, R, U, h1, h2, h3, h4, h5, h6, h7, h8, h9, he, h10⟩ :=
    timed_orbit_run name v rp psi apo hEI A Hv hA hv hrp hH hne hra
  refine ⟨el, per, R, U, h1, h2, h3, h4, h5, h6, h7, h8, h9, fun t hM hc => ?_⟩
  obtain ⟨E, hE⟩ := C56_eccentric_anomaly_returns el.e (2 * π * t / per) he hM hc
  exact h10 t E hE

/-- Case for `C56_timed_orbit_secant`: the Earth capture orbit of C56 (eccentricity 0.723), the whole first revolution. -/
example : ∃ (A : Approach) (el : Elements) (per : ℝ), Approach.init "EARTH" ⟨0, 10 * 1, 0⟩ 6771e3 0 false none = .ok A ∧
    (PropOrbiter.mk A 35786).elements = some el ∧ (PropOrbiter.mk A 35786).period el = some per ∧ 0.72 < el.e ∧
    ∀ t, 0 ≤ t → t ≤ per → ∃ X, (PropOrbiter.mk A 35786).timedPosSecant el t = some X := by
  obtain ⟨A, Hv, hA, hv, hH, hne, hra⟩ := earth_capture
  obtain ⟨el, per, R, U, h1, h2, h3, h4, -, -, -, -, -, h10⟩ :=
    C56_timed_orbit_secant "EARTH" _ 6771e3 0 35786 none A Hv hA hv (by norm_num) hH hne hra
  have hRP : A.P.RP = 6371e3 := by
    obtain ⟨P, hP, hAP, -⟩ := approach_init_inv hA
    rw [hAP]; simp [Planet.init] at hP; subst hP; rfl
  rw [hRP] at h4
  norm_num at h4
  have lo : 0.72 < el.e := by norm_num; linarith
  have hi : el.e ≤ 0.7233 := by norm_num; linarith
  refine ⟨A, el, per, hA, h1, h2, lo, fun t ht htp => h10 t ?_ ?_⟩ <;>
  · have hpi := pi_le_four
    have hpp := pi_pos
    have hM0 : 0 ≤ 2 * π * t / per := by positivity
    have hM : 2 * π * t / per ≤ 8 := by
      rw [div_le_iff₀ h3]; nlinarith
    norm_num at lo hi
    rw [abs_of_nonneg hM0]
    first
    | linarith
    | (rw [abs_of_pos (by linarith : 0 < el.e)]
       have hd : el.e / (2 * (1 - el.e)) ≤ 1.31 := by
         rw [div_le_iff₀ (by linarith)]; norm_num; linarith
       have hs : el.e + (2 * π * t / per + 1) * 1e-4 ≤ 0.7243 := by norm_num; linarith
       have hn : (0:ℝ) ≤ el.e + (2 * π * t / per + 1) * 1e-4 := by positivity
       exact (mul_le_mul hd hs hn (by norm_num)).trans (by norm_num))

end AMAT.Props
