import Mathlib.Analysis.Real.Pi.Bounds
import Verif.Props.SecantRoot

/-
Property C56, eccentricities up to 0.9: far from the root the secant method for Kepler's equation follows the pattern
left, left, right of a convex function, and two of three steps bring the left point closer to the root by a fixed factor.
-/

noncomputable section

namespace AMAT.Props

open Real AMAT

/-! ### The mean of the cosine on `[0, π]` -/

theorem meanCos_anti {x y x' y' : ℝ} (hx : 0 ≤ x) (hy : 0 ≤ y) (hxx : x ≤ x') (hyy : y ≤ y') (hx' : x' ≤ π) (hy' : y' ≤ π) :
    meanCos x' y' ≤ meanCos x y := by
  unfold meanCos
  refine intervalIntegral.integral_mono_on (by norm_num) (by apply Continuous.intervalIntegrable; fun_prop)
    (by apply Continuous.intervalIntegrable; fun_prop) fun s hs => ?_
  obtain ⟨h0, h1⟩ := hs
  have e1 : y + s * (x - y) = (1 - s) * y + s * x := by ring
  have e2 : y' + s * (x' - y') = (1 - s) * y' + s * x' := by ring
  rw [e1, e2]
  have h2 : 0 ≤ 1 - s := by linarith
  apply cos_le_cos_of_nonneg_of_le_pi
  · positivity
  · have := mul_le_mul_of_nonneg_left hy' h2
    have := mul_le_mul_of_nonneg_left hx' h0
    nlinarith
  · have := mul_le_mul_of_nonneg_left hyy h2
    have := mul_le_mul_of_nonneg_left hxx h0
    linarith

theorem meanCos_self (x : ℝ) : meanCos x x = cos x := by
  unfold meanCos; simp

theorem meanCos_pi {x : ℝ} (hx : x < π) : meanCos π x = -(sin x / (π - x)) := by
  have h := sin_sub_eq π x
  rw [sin_pi] at h
  have : π - x ≠ 0 := by linarith
  field_simp
  linarith

/-! ### One step -/

/-- The step seen from the older of the two points. -/
theorem kepler_step' {e : ℝ} (he : |e| < 1) (M : ℝ) {p0 p1 : ℝ} (hne : p1 ≠ p0) {p : ℝ}
    (hp : p = secantNext p0 p1 (p0 - e * sin p0 - M) (p1 - e * sin p1 - M)) :
    (p - p0) * (1 - e * meanCos p1 p0) = -(p0 - e * sin p0 - M) := by
  have h := kepler_step he M hne hp
  have hd := kepler_diff e M p1 p0
  linarith

/-- Bounds on the slopes met when flying from a left point `a` over the root `r` to a right point. -/
structure Arc (e M r l s S : ℝ) : Prop where
  e0 : 0 ≤ e
  e1 : |e| < 1
  root : r - e * sin r - M = 0
  l0 : 0 ≤ l
  lr : l ≤ r
  rpi : r < π
  spos : 0 < s
  Spos : 0 < S
  sl : s ≤ 1 - e * cos l
  sS : 1 + e * (sin r / (π - r)) ≤ S
  over : ∀ m, l ≤ m → m ≤ r → M - m + e * sin m ≤ (π - m) * (1 - e * cos m)

namespace Arc

variable {e M r l s S : ℝ}

theorem slope_pos (A : Arc e M r l s S) (x y : ℝ) : 0 < 1 - e * meanCos x y := by
  have := slope_bounds (e := e) x y
  have := A.e1
  linarith

/-- Two left points give a right point, not beyond `π`. -/
theorem left_left (A : Arc e M r l s S) {p0 p1 p : ℝ} (h0 : l ≤ p0) (h0' : p0 ≤ r) (h1 : l ≤ p1) (h1' : p1 ≤ r)
    (hne : p1 ≠ p0) (hp : p = secantNext p0 p1 (p0 - e * sin p0 - M) (p1 - e * sin p1 - M)) : r ≤ p ∧ p ≤ π := by
  have hs := A.slope_pos p1 p0
  have hl := A.l0
  have hr := A.rpi
  have st := kepler_step A.e1 M hne hp
  have st' := kepler_step' A.e1 M hne hp
  constructor
  · have hd := kepler_diff e M p1 r
    rw [A.root, sub_zero] at hd
    rw [hd] at st
    have hm : meanCos p1 r ≤ meanCos p1 p0 := meanCos_anti (by linarith) (by linarith) le_rfl h0' (by linarith) hr.le
    have h2 : (p - r) * (1 - e * meanCos p1 p0) = (r - p1) * (e * (meanCos p1 p0 - meanCos p1 r)) := by
      linear_combination st
    have h3 : 0 ≤ (p - r) * (1 - e * meanCos p1 p0) := by
      rw [h2]; exact mul_nonneg (by linarith) (mul_nonneg A.e0 (by linarith))
    have := nonneg_of_mul_nonneg_left h3 hs
    linarith
  · -- seen from the smaller of the two points
    obtain ⟨m, hm1, hm2, hm3, hm4⟩ : ∃ m, l ≤ m ∧ m ≤ r ∧ meanCos p1 p0 ≤ cos m ∧
        (p - m) * (1 - e * meanCos p1 p0) = -(m - e * sin m - M) := by
      rcases le_total p0 p1 with h | h
      · have : meanCos p1 p0 ≤ cos p0 := by
          rw [← meanCos_self p0]
          exact meanCos_anti (by linarith) (by linarith) h le_rfl (by linarith) (by linarith)
        exact ⟨p0, h0, h0', this, st'⟩
      · have : meanCos p1 p0 ≤ cos p1 := by
          rw [← meanCos_self p1]
          exact meanCos_anti (by linarith) (by linarith) le_rfl h (by linarith) (by linarith)
        exact ⟨p1, h1, h1', this, st⟩
    have ho := A.over m hm1 hm2
    have h2 : (p - m) * (1 - e * meanCos p1 p0) ≤ (π - m) * (1 - e * meanCos p1 p0) := by
      have : (π - m) * (1 - e * cos m) ≤ (π - m) * (1 - e * meanCos p1 p0) :=
        mul_le_mul_of_nonneg_left (by have := mul_le_mul_of_nonneg_left hm3 A.e0; linarith) (by linarith)
      linarith
    have := le_of_mul_le_mul_right h2 hs
    linarith

/-- A left and a right point give a left point, closer to the root. -/
theorem across (A : Arc e M r l s S) {a b p c : ℝ} (ha : l ≤ a) (ha' : a ≤ r) (hb : r ≤ b) (hb' : b ≤ π)
    (hc : c = meanCos b a) (hp : (p - a) * (1 - e * c) = -(a - e * sin a - M))
    (hp' : (p - b) * (1 - e * c) = -(b - e * sin b - M)) :
    l ≤ p ∧ p ≤ r ∧ r - p ≤ (1 - s / S) * (r - a) := by
  have hs := A.slope_pos b a
  rw [← hc] at hs
  have hl := A.l0
  have hr := A.rpi
  have he := A.e0
  -- left of the root
  have hd := kepler_diff e M b r
  rw [A.root, sub_zero] at hd
  have hm : meanCos b r ≤ c := by
    rw [hc]; exact meanCos_anti (by linarith) (by linarith) le_rfl ha' hb' hr.le
  have hpr : p ≤ r := by
    have h2 : (r - p) * (1 - e * c) = (b - r) * (e * (c - meanCos b r)) := by
      rw [hd] at hp'; linear_combination -hp'
    have h3 : 0 ≤ (r - p) * (1 - e * c) := by
      rw [h2]; exact mul_nonneg (by linarith) (mul_nonneg he (by linarith))
    have := nonneg_of_mul_nonneg_left h3 hs
    linarith
  -- the slope from `a` to the root
  have hd' := kepler_diff e M a r
  rw [A.root, sub_zero] at hd'
  have hma : meanCos a r ≤ cos l := by
    rw [← meanCos_self l]; exact meanCos_anti hl hl ha (by linarith) (by linarith) hr.le
  have hsa : s ≤ 1 - e * meanCos a r := by
    have := mul_le_mul_of_nonneg_left hma he
    have := A.sl
    linarith
  -- the slope from `a` to `b`
  have hcb : -(sin r / (π - r)) ≤ c := by
    rw [← meanCos_pi hr]
    refine le_trans ?_ hm
    exact meanCos_anti (by linarith) (by linarith) hb' le_rfl le_rfl hr.le
  have hSb : 1 - e * c ≤ S := by
    have := mul_le_mul_of_nonneg_left hcb he
    have := A.sS
    linarith
  have h4 : (p - a) * (1 - e * c) = (r - a) * (1 - e * meanCos a r) := by
    rw [hd'] at hp; linear_combination hp
  have hra : 0 ≤ r - a := by linarith
  have hpa : 0 ≤ p - a := by
    refine nonneg_of_mul_nonneg_left ?_ hs
    rw [h4]; exact mul_nonneg hra (by linarith [A.spos])
  refine ⟨by linarith, hpr, ?_⟩
  have h5 : (r - a) * s ≤ (p - a) * S := by
    calc (r - a) * s ≤ (r - a) * (1 - e * meanCos a r) := mul_le_mul_of_nonneg_left hsa hra
      _ = (p - a) * (1 - e * c) := h4.symm
      _ ≤ _ := mul_le_mul_of_nonneg_left hSb hpa
  have h6 : (r - a) * (s / S) ≤ p - a := by
    rw [← mul_div_assoc, div_le_iff₀ A.Spos]; exact h5
  linarith

/-- Far from the root: `j` rounds of three steps each bring the two left points closer to the root by `q ^ (2 j)`, unless
the loop stops before. -/
theorem rounds (A : Arc e M r l s S) {q : ℝ} (hq : 1 - s / S ≤ q) (hq0 : 0 ≤ q) {B : ℝ} {k : ℕ}
    (hstop : ∀ p0 p1, p1 ≠ p0 → |p0 - r| ≤ B → |p1 - r| ≤ B →
      ∃ E, secantLoop (fun E => E - e * sin E - M) k p0 p1 = some E) :
    ∀ (j : ℕ) (p0 p1 c : ℝ), p1 ≠ p0 → l ≤ p0 → p0 ≤ r → l ≤ p1 → p1 ≤ r → r - p0 ≤ c → r - p1 ≤ q * c →
      q ^ (2 * j) * c ≤ B → q ≤ 1 →
      ∃ E, secantLoop (fun E => E - e * sin E - M) (k + 3 * j) p0 p1 = some E := by
  intro j
  induction j with
  | zero =>
    intro p0 p1 c hne h0 h0' h1 h1' hc0 hc1 hB hq1
    have hc : 0 ≤ c := by linarith
    have : q * c ≤ c := mul_le_of_le_one_left hc hq1
    simp only [mul_zero, pow_zero, one_mul] at hB
    exact hstop p0 p1 hne (by rw [abs_le]; constructor <;> linarith) (by rw [abs_le]; constructor <;> linarith)
  | succ j ih =>
    intro p0 p1 c hne h0 h0' h1 h1' hc0 hc1 hB hq1
    have tol : ∀ x y : ℝ, ¬ |x - y| ≤ 1.48e-8 → x ≠ y := by
      intro x y h hxy
      rw [hxy, sub_self, abs_zero] at h
      norm_num at h
    rw [show k + 3 * (j + 1) = (k + 3 * j) + 1 + 1 + 1 by ring, secantLoop]
    simp only [if_neg (kepler_ne A.e1 M hne)]
    set p := secantNext p0 p1 (p0 - e * sin p0 - M) (p1 - e * sin p1 - M) with hp
    by_cases c1 : |p - p1| ≤ 1.48e-8
    · rw [if_pos c1]; exact ⟨_, rfl⟩
    rw [if_neg c1]
    have n1 := tol _ _ c1
    obtain ⟨b1, b2⟩ := A.left_left h0 h0' h1 h1' hne hp
    -- second step: left, right
    rw [secantLoop]
    simp only [if_neg (kepler_ne A.e1 M n1)]
    set p' := secantNext p1 p (p1 - e * sin p1 - M) (p - e * sin p - M) with hp'
    by_cases c2 : |p' - p| ≤ 1.48e-8
    · rw [if_pos c2]; exact ⟨_, rfl⟩
    rw [if_neg c2]
    have n2 := tol _ _ c2
    obtain ⟨d1, d2, d3⟩ := A.across h1 h1' b1 b2 rfl (kepler_step' A.e1 M n1 hp') (kepler_step A.e1 M n1 hp')
    -- third step: right, left
    rw [secantLoop]
    simp only [if_neg (kepler_ne A.e1 M n2)]
    set p'' := secantNext p p' (p - e * sin p - M) (p' - e * sin p' - M) with hp''
    by_cases c3 : |p'' - p'| ≤ 1.48e-8
    · rw [if_pos c3]; exact ⟨_, rfl⟩
    rw [if_neg c3]
    have n3 := tol _ _ c3
    obtain ⟨f1, f2, f3⟩ := A.across d1 d2 b1 b2 (meanCos_comm p' p) (kepler_step A.e1 M n2 hp'') (kepler_step' A.e1 M n2 hp'')
    have g1 : r - p' ≤ q * (q * c) :=
      d3.trans ((mul_le_mul_of_nonneg_right hq (by linarith)).trans (mul_le_mul_of_nonneg_left hc1 hq0))
    have g2 : r - p'' ≤ q * (q * (q * c)) :=
      f3.trans ((mul_le_mul_of_nonneg_right hq (by linarith)).trans (mul_le_mul_of_nonneg_left g1 hq0))
    refine ih p' p'' (q * (q * c)) n3 d1 d2 f1 f2 g1 g2 ?_ hq1
    rw [show 2 * (j + 1) = 2 * j + 2 by ring, pow_add] at hB
    linarith

end Arc

/-! ### Numbers for eccentricities up to 0.9 -/

theorem cos_upper {m : ℝ} (h0 : 0 ≤ m) (h2 : m ≤ 2) : cos m ≤ 1 - m ^ 2 / 2 * (1 - m ^ 2 / 16) ^ 2 := by
  rcases h0.eq_or_lt with h | h
  · rw [← h]; simp
  have hs : m / 2 - (m / 2) ^ 3 / 4 ≤ sin (m / 2) := by
    have := sin_gt_sub_cube (x := m / 2) (by linarith)
    have : 0 < (m / 2) ^ 3 := by positivity
    linarith
  have hp : 0 ≤ m / 2 - (m / 2) ^ 3 / 4 := by
    have : m / 2 - (m / 2) ^ 3 / 4 = m / 2 * (1 - m ^ 2 / 16) := by ring
    rw [this]; apply mul_nonneg (by linarith); nlinarith
  have h1 : (m / 2 - (m / 2) ^ 3 / 4) ^ 2 ≤ sin (m / 2) ^ 2 := pow_le_pow_left₀ hp hs 2
  have h3 : cos m = 1 - 2 * sin (m / 2) ^ 2 := by
    have := cos_two_mul (m / 2)
    rw [show 2 * (m / 2) = m by ring] at this
    have := sin_sq_add_cos_sq (m / 2)
    linarith
  rw [h3]
  have h4 : m ^ 2 / 2 * (1 - m ^ 2 / 16) ^ 2 = 2 * (m / 2 - (m / 2) ^ 3 / 4) ^ 2 := by ring
  rw [h4]; linarith

theorem sin_le_rest {m : ℝ} (h : m ≤ π) : sin m ≤ π - m := by
  rw [← sin_pi_sub]; exact sin_le (by linarith)

/-- No step from two left points overshoots `π`. -/
theorem no_overshoot {e m M : ℝ} (e0 : 0 ≤ e) (e1 : e ≤ 9 / 10) (m0 : 0 ≤ m) (m1 : m ≤ π - 1 / 5) (hM : M ≤ m + 1 / 50) :
    M - m + e * sin m ≤ (π - m) * (1 - e * cos m) := by
  have hpi := pi_gt_d2
  have hpi' := pi_lt_d2
  norm_num at hpi hpi'
  suffices h : e * (sin m + (π - m) * cos m) ≤ π - m - 1 / 50 by linarith
  rcases le_or_gt (sin m + (π - m) * cos m) 0 with hA | hA
  · have := mul_nonpos_of_nonneg_of_nonpos e0 hA
    linarith
  refine (mul_le_mul_of_nonneg_right e1 hA.le).trans ?_
  rcases le_total (π / 2) m with hm | hm
  · have hc : cos m ≤ 0 := cos_nonpos_of_pi_div_two_le_of_le hm (by linarith)
    have := mul_nonpos_of_nonneg_of_nonpos (by linarith : 0 ≤ π - m) hc
    have := sin_le_rest (m := m) (by linarith)
    linarith
  have hcu := cos_upper m0 (by linarith)
  have hs := sin_le m0
  rcases le_total m (5 / 4) with h54 | h54
  · have h1 : (1 - m ^ 2 / 16) ^ 2 ≥ 407 / 500 := by
      have h2 : 231 / 256 ≤ 1 - m ^ 2 / 16 := by nlinarith
      nlinarith
    have h3 : cos m ≤ 1 - 407 / 1000 * m ^ 2 := by nlinarith [sq_nonneg m]
    have h5 : (π - m) * cos m ≤ (π - m) * (1 - 407 / 1000 * m ^ 2) := mul_le_mul_of_nonneg_left h3 (by linarith)
    have h6 : (157 / 50 - m) * (1 / 10 + 9 / 10 * (407 / 1000 * m ^ 2)) ≤ (π - m) * (1 / 10 + 9 / 10 * (407 / 1000 * m ^ 2)) :=
      mul_le_mul_of_nonneg_right (by linarith) (by positivity)
    have h7 : 9 / 10 * m + 1 / 50 ≤ (157 / 50 - m) * (1 / 10 + 9 / 10 * (407 / 1000 * m ^ 2)) := by
      nlinarith [mul_nonneg (by linarith : 0 ≤ 5 / 4 - m) (sq_nonneg (m - 1 / 2)), sq_nonneg (m - 3 / 5)]
    nlinarith
  · have hc : cos m ≤ 444 / 1000 := by
      have h2 : 844 / 1000 ≤ 1 - m ^ 2 / 16 := by nlinarith
      have h1 : 712 / 1000 ≤ (1 - m ^ 2 / 16) ^ 2 := by nlinarith
      have h3 : 25 / 32 ≤ m ^ 2 / 2 := by nlinarith
      have := mul_le_mul h3 h1 (by norm_num) (by positivity)
      linarith
    have h5 : (π - m) * cos m ≤ (π - m) * (444 / 1000) := mul_le_mul_of_nonneg_left hc (by linarith)
    have := sin_le_one m
    linarith

/-- The contraction factor of the far phase is at most 0.93. -/
theorem far_factor {e r l : ℝ} (e0 : 0 ≤ e) (e1 : e ≤ 9 / 10) (r0 : 0 ≤ r) (r1 : r ≤ π - 1 / 5)
    (hl : l = r - e * sin r - 1 / 50) :
    7 / 100 * (1 + e * (sin r / (π - r))) ≤ 1 - e * cos l := by
  have hpi := pi_gt_d2
  have hpi' := pi_lt_d2
  norm_num at hpi hpi'
  suffices h : e * (7 / 100 * (sin r / (π - r)) + cos l) ≤ 93 / 100 by linarith
  suffices h : 7 / 100 * (sin r / (π - r)) + cos l ≤ 31 / 30 by
    rcases le_or_gt (7 / 100 * (sin r / (π - r)) + cos l) 0 with hA | hA
    · have := mul_nonpos_of_nonneg_of_nonpos e0 hA
      linarith
    · refine (mul_le_mul e1 h hA.le (by norm_num)).trans (by norm_num)
  have hsr : 0 ≤ sin r := sin_nonneg_of_nonneg_of_le_pi r0 (by linarith)
  have hs1 := sin_le_one r
  have hr : 0 < π - r := by linarith
  have hes : e * sin r ≤ 9 / 10 * sin r := mul_le_mul_of_nonneg_right e1 hsr
  have hlpi : l ≤ π := by
    have := mul_nonneg e0 hsr
    linarith
  have cos_at : ∀ x, 0 ≤ x → x ≤ l → x ≤ 2 → cos l ≤ 1 - x ^ 2 / 2 * (1 - x ^ 2 / 16) ^ 2 := fun x h h' h2 =>
    (cos_le_cos_of_nonneg_of_le_pi h hlpi h').trans (cos_upper h h2)
  rcases le_total r 1 with h1 | h1
  · have hq : sin r / (π - r) ≤ 50 / 107 := by
      rw [div_le_iff₀ hr]; linarith
    have := cos_le_one l
    linarith
  rcases le_total r (π / 2) with h2 | h2
  · have hq : sin r / (π - r) ≤ 100 / 157 := by
      rw [div_le_iff₀ hr]; linarith
    have hsin1 : sin 1 ≤ 89 / 100 := by
      have := sin_bound (x := 1) (by norm_num)
      norm_num [abs_le] at this
      linarith
    have hsr1 : sin r - sin 1 ≤ r - 1 := by
      have := sin_sub_eq r 1
      rw [this]
      have hm := (abs_le.mp (abs_meanCos_le r 1)).2
      have := mul_le_mul_of_nonneg_left hm (by linarith : 0 ≤ r - 1)
      linarith
    have hl17 : 17 / 100 ≤ l := by linarith
    have := cos_at (17 / 100) (by norm_num) hl17 (by norm_num)
    norm_num at this
    linarith
  · have hq : sin r / (π - r) ≤ 1 := by
      rw [div_le_iff₀ hr, one_mul]; exact sin_le_rest (by linarith)
    have hl6 : 6 / 10 ≤ l := by linarith
    have := cos_at (6 / 10) (by norm_num) hl6 (by norm_num)
    norm_num at this
    linarith

/-- The loop stops when it starts next to the mean anomaly, for mean anomalies in `[0, π]`. -/
theorem kepler_half {e M : ℝ} (e0 : 0 ≤ e) (e1 : e ≤ 9 / 10) (M0 : 0 ≤ M) (M1 : M ≤ π) {p0 p1 : ℝ} (hne : p1 ≠ p0)
    (h0 : |p0 - M| ≤ 1 / 50) (h1 : |p1 - M| ≤ 1 / 50) :
    ∃ E, secantLoop (fun E => E - e * sin E - M) 50 p0 p1 = some E := by
  have he : |e| < 1 := by rw [abs_of_nonneg e0]; linarith
  obtain ⟨g0, g1⟩ := abs_lt.mp he
  set r := ecc g0 g1 M with hr
  have hk : r - e * sin r - M = 0 := by have := kep_ecc g0 g1 M; unfold kep at this; rw [hr]; linarith
  have hK : |e| / (2 * (1 - |e|)) ≤ 9 / 2 := by
    rw [abs_of_nonneg e0, div_le_iff₀ (by linarith)]; linarith
  have hKB : |e| / (2 * (1 - |e|)) * (1033 / 5000) ≤ 93 / 100 := by linarith
  have hfin : 2 * ((1033 / 5000 : ℝ) * (93 / 100) ^ (2 ^ 8 - 1)) ≤ 1.48e-8 := by norm_num
  have near : ∀ k, 16 < k → ∀ p0 p1, p1 ≠ p0 → |p0 - r| ≤ 1033 / 5000 → |p1 - r| ≤ 1033 / 5000 →
      ∃ E, secantLoop (fun E => E - e * sin E - M) k p0 p1 = some E := fun k hk' q0 q1 hq a0 a1 =>
    secantLoop_stops he hk 8 k q0 q1 _ _ hq a0 a1 hKB (by norm_num) (by norm_num) hfin (by omega)
  obtain ⟨h0l, h0u⟩ := abs_le.mp h0
  obtain ⟨h1l, h1u⟩ := abs_le.mp h1
  -- the root lies in `[0, π]`
  have hr0 : 0 ≤ r := by
    by_contra hn
    have hd := kepler_diff e M r 0
    rw [hk, sin_zero] at hd
    have := slope_bounds (e := e) r 0
    have := mul_neg_of_neg_of_pos (not_le.mp hn) (by linarith : 0 < 1 - e * meanCos r 0)
    linarith
  have hrpi : r ≤ π := by
    by_contra hn
    have hd := kepler_diff e M r π
    rw [hk, sin_pi] at hd
    have := slope_bounds (e := e) r π
    have := mul_pos (by linarith : 0 < r - π) (by linarith : 0 < 1 - e * meanCos r π)
    linarith
  have hsr : 0 ≤ sin r := sin_nonneg_of_nonneg_of_le_pi hr0 hrpi
  have hes : 0 ≤ e * sin r := mul_nonneg e0 hsr
  rcases le_or_gt (e * sin r) (18 / 100) with hsmall | hbig
  · exact near 50 (by norm_num) p0 p1 hne (by rw [abs_le]; constructor <;> linarith) (by rw [abs_le]; constructor <;> linarith)
  -- far from the root
  have hs2 : 1 / 5 < sin r := by
    by_contra hn
    have := mul_le_mul e1 (not_lt.mp hn) hsr (by norm_num)
    linarith
  have hrpi' : r ≤ π - 1 / 5 := by have := sin_le_rest hrpi; linarith
  have hrs := sin_le hr0
  have hes9 : e * sin r ≤ 9 / 10 := (mul_le_mul e1 (sin_le_one r) hsr (by norm_num)).trans (by norm_num)
  have hesr : e * sin r ≤ 9 / 10 * r := mul_le_mul e1 hrs hsr (by norm_num)
  have hl0 : 0 ≤ M - 1 / 50 := by linarith
  have hfac := far_factor (l := M - 1 / 50) e0 e1 hr0 hrpi' (by linarith)
  have hS : 0 < 1 + e * (sin r / (π - r)) := by
    have : 0 ≤ sin r / (π - r) := div_nonneg hsr (by linarith)
    have := mul_nonneg e0 this
    linarith
  have A : Arc e M r (M - 1 / 50) (7 / 100 * (1 + e * (sin r / (π - r)))) (1 + e * (sin r / (π - r))) :=
    { e0 := e0, e1 := he, root := hk, l0 := hl0, lr := by linarith, rpi := by linarith, spos := by positivity, Spos := hS,
      sl := hfac, sS := le_rfl, over := fun m hm1 hm2 => no_overshoot e0 e1 (by linarith) (by linarith) (by linarith) }
  have hq : 1 - 7 / 100 * (1 + e * (sin r / (π - r))) / (1 + e * (sin r / (π - r))) ≤ 93 / 100 := by
    rw [mul_div_assoc, div_self hS.ne']; norm_num
  have := A.rounds hq (by norm_num) (near 17 (by norm_num)) 11 p0 p1 (92 / 93) hne (by linarith) (by linarith) (by linarith)
    (by linarith) (by linarith) (by linarith) (by norm_num) (by norm_num)
  simpa using this

/-! ### Periodicity and mirror -/

theorem secantLoop_shift (f : ℝ → ℝ) (k : ℝ) : ∀ (n : ℕ) (p0 p1 : ℝ),
    secantLoop (fun E => f (E + k)) n p0 p1 = (secantLoop f n (p0 + k) (p1 + k)).map (fun E => E - k) := by
  intro n
  induction n with
  | zero => intro p0 p1; simp [secantLoop]
  | succ n ih =>
    intro p0 p1
    simp only [secantLoop]
    by_cases hf : f (p1 + k) = f (p0 + k)
    · simp only [if_pos hf]
      by_cases hp : p1 = p0
      · rw [if_pos hp, if_pos (by rw [hp]), Option.map_some]; congr 1; ring
      · rw [if_neg hp, if_neg (fun h => hp (add_right_cancel h)), Option.map_none]
    · simp only [if_neg hf]
      have h1 := secantNext_eq (p0 := p0) (p1 := p1) hf
      have h2 := secantNext_eq (p0 := p0 + k) (p1 := p1 + k) hf
      have hx : secantNext (p0 + k) (p1 + k) (f (p0 + k)) (f (p1 + k)) = secantNext p0 p1 (f (p0 + k)) (f (p1 + k)) + k := by
        have : (secantNext (p0 + k) (p1 + k) (f (p0 + k)) (f (p1 + k)) -
            (secantNext p0 p1 (f (p0 + k)) (f (p1 + k)) + k)) * (f (p1 + k) - f (p0 + k)) = 0 := by
          linear_combination h2 - h1
        have := (mul_eq_zero.mp this).resolve_right (sub_ne_zero.mpr hf)
        linarith
      rw [hx, show secantNext p0 p1 (f (p0 + k)) (f (p1 + k)) + k - (p1 + k) =
        secantNext p0 p1 (f (p0 + k)) (f (p1 + k)) - p1 by ring]
      split_ifs
      · rw [Option.map_some, add_sub_cancel_right]
      · exact ih _ _

theorem secantLoop_mirror (f : ℝ → ℝ) : ∀ (n : ℕ) (p0 p1 : ℝ),
    secantLoop (fun E => -f (-E)) n p0 p1 = (secantLoop f n (-p0) (-p1)).map (fun E => -E) := by
  intro n
  induction n with
  | zero => intro p0 p1; simp [secantLoop]
  | succ n ih =>
    intro p0 p1
    simp only [secantLoop]
    by_cases hf : f (-p1) = f (-p0)
    · rw [if_pos hf, if_pos (by rw [hf])]
      by_cases hp : p1 = p0
      · rw [if_pos hp, if_pos (by rw [hp]), Option.map_some]; congr 1; ring
      · rw [if_neg hp, if_neg (fun h => hp (neg_injective h)), Option.map_none]
    · have hf' : -f (-p1) ≠ -f (-p0) := fun h => hf (neg_injective h)
      simp only [if_neg hf, if_neg hf']
      have h1 := secantNext_eq (p0 := p0) (p1 := p1) hf'
      have h2 := secantNext_eq (p0 := -p0) (p1 := -p1) hf
      have hx : secantNext p0 p1 (-f (-p0)) (-f (-p1)) = -secantNext (-p0) (-p1) (f (-p0)) (f (-p1)) := by
        have : (secantNext p0 p1 (-f (-p0)) (-f (-p1)) + secantNext (-p0) (-p1) (f (-p0)) (f (-p1))) *
            (f (-p1) - f (-p0)) = 0 := by
          linear_combination h2 - h1
        have := (mul_eq_zero.mp this).resolve_right (sub_ne_zero.mpr hf)
        linarith
      have ha : |secantNext p0 p1 (-f (-p0)) (-f (-p1)) - p1| =
          |secantNext (-p0) (-p1) (f (-p0)) (f (-p1)) - -p1| := by
        rw [hx, ← abs_neg]; congr 1; ring
      rw [ha]
      split_ifs
      · rw [Option.map_some, hx]
      · rw [ih, hx, neg_neg]

/-- The loop stops from every pair of points next to the mean anomaly. -/
def Settles (e M : ℝ) : Prop := ∀ p0 p1, p1 ≠ p0 → |p0 - M| ≤ 1 / 50 → |p1 - M| ≤ 1 / 50 →
  ∃ E, secantLoop (fun E => E - e * sin E - M) 50 p0 p1 = some E

theorem Settles.neg {e M : ℝ} (h : Settles e M) : Settles e (-M) := by
  intro p0 p1 hne h0 h1
  obtain ⟨E, hE⟩ := h (-p0) (-p1) (fun h => hne (neg_injective h))
    (by rw [← abs_neg]; convert h0 using 2; ring) (by rw [← abs_neg]; convert h1 using 2; ring)
  refine ⟨-E, ?_⟩
  have hf : (fun E => E - e * sin E - -M) = fun E => -((fun E => E - e * sin E - M) (-E)) := by
    funext E; simp only [sin_neg]; ring
  rw [hf, secantLoop_mirror (fun E => E - e * sin E - M), hE, Option.map_some]

theorem Settles.shift {e e' M k : ℝ} (hk : ∀ E, e' * sin (E + k) = e * sin E) (h : Settles e' (M + k)) : Settles e M := by
  intro p0 p1 hne h0 h1
  obtain ⟨E, hE⟩ := h (p0 + k) (p1 + k) (fun h => hne (add_right_cancel h))
    (by convert h0 using 2; ring) (by convert h1 using 2; ring)
  refine ⟨E - k, ?_⟩
  have hf : (fun E => E - e * sin E - M) = fun E => (fun E => E - e' * sin E - (M + k)) (E + k) := by
    funext E; simp only [hk]; ring
  rw [hf, secantLoop_shift (fun E => E - e' * sin E - (M + k)), hE, Option.map_some]

theorem settles {e : ℝ} (he : |e| ≤ 9 / 10) (M : ℝ) : Settles e M := by
  have pos : ∀ e, 0 ≤ e → e ≤ 9 / 10 → ∀ M, Settles e M := by
    intro e e0 e1 M
    have hpi := pi_pos
    have hr := abs_sub_round (M / (2 * π))
    set n := round (M / (2 * π)) with hn
    refine Settles.shift (e' := e) (k := -(n * (2 * π))) (fun E => by
      rw [← sub_eq_add_neg, sin_sub_int_mul_two_pi]) ?_
    have hb : |M + -(n * (2 * π))| ≤ π := by
      have : M + -(n * (2 * π)) = (M / (2 * π) - n) * (2 * π) := by field_simp; ring
      rw [this, abs_mul, abs_of_pos (by positivity : 0 < 2 * π)]
      nlinarith
    set M' := M + -(n * (2 * π)) with hM'
    obtain ⟨b1, b2⟩ := abs_le.mp hb
    rcases le_total 0 M' with h | h
    · exact fun p0 p1 hne h0 h1 => kepler_half e0 e1 h b2 hne h0 h1
    · have : Settles e (-M') := fun p0 p1 hne h0 h1 => kepler_half e0 e1 (by linarith) (by linarith) hne h0 h1
      have := this.neg
      rwa [neg_neg] at this
  obtain ⟨h1, h2⟩ := abs_le.mp he
  rcases le_total 0 e with h | h
  · exact pos e h h2 M
  · exact Settles.shift (e' := -e) (k := π) (fun E => by rw [sin_add_pi]; ring) (pos (-e) (by linarith) (by linarith) _)

/-- C56: `compute_E` returns for every eccentricity up to 0.9 during the first thirty revolutions (and the value is accurate
by `C56_eccentric_anomaly_accurate`). -/
theorem C56_eccentric_anomaly_returns_wide (e M : ℝ) (he : |e| ≤ 0.9) (hM : |M| ≤ 199) : ∃ E, computeE e M = some E := by
  have he' : |e| ≤ 9 / 10 := by norm_num at he; exact he
  obtain ⟨hne, hst⟩ := secantStart_ne M
  have hd : |secantStart M - M| ≤ 1 / 50 := by
    refine hst.trans ?_
    norm_num; linarith
  have h0 : |M - M| ≤ 1 / 50 := by simp
  unfold computeE scipyNewton
  simp only
  split_ifs
  · exact settles he' M _ _ hne.symm hd h0
  · exact settles he' M _ _ hne h0 hd

/-- Case for `C56_eccentric_anomaly_returns_wide`: eccentricity 0.9 at every mean anomaly of the first revolution, with the
accuracy of `C56_eccentric_anomaly_accurate`. -/
example (M : ℝ) (h0 : 0 ≤ M) (h1 : M ≤ 2 * π) : ∃ E E', computeE 0.9 M = some E ∧ E' - 0.9 * sin E' = M ∧ |E - E'| < 3e-7 := by
  have hpi := pi_lt_d2
  have he : |(0.9:ℝ)| = 0.9 := abs_of_pos (by norm_num)
  obtain ⟨E, hE⟩ := C56_eccentric_anomaly_returns_wide 0.9 M (by rw [he]) (by
    rw [abs_of_nonneg h0]; norm_num at hpi; linarith)
  obtain ⟨-, E', h2, -, h4⟩ := C56_eccentric_anomaly_accurate 0.9 M E (by rw [he]; norm_num) hE
  refine ⟨E, E', hE, h2, h4.trans_lt ?_⟩
  rw [he]; norm_num

/-- C56 for capture orbits whose apsides differ by a factor of at most 19 (eccentricity up to 0.9): during the first thirty
revolutions `compute_timed_orbit_trajectory` returns a position for every time, and it is that of the two-body motion at a
time within `2 e · 1.48e-8 / 2π` revolutions of the requested one. -/
theorem C56_timed_orbit_secant_wide (name : String) (v : V3) (rp psi apo : ℝ) (hEI : Option ℝ) (A : Approach) (Hv : V3)
    (hA : Approach.init name v rp psi false hEI = .ok A) (hv : v ≠ 0) (hrp : 0 < rp) (hH : A.hVec = some Hv)
    (hne : Hv.x ≠ 0 ∨ Hv.y ≠ 0) (hra : rp ≤ 19 * (A.P.RP + apo * 1000)) (hra' : A.P.RP + apo * 1000 ≤ 19 * rp) :
    ∃ (el : Elements) (per : ℝ) (R U : ℝ → V3), (PropOrbiter.mk A apo).elements = some el ∧
      (PropOrbiter.mk A apo).period el = some per ∧ 0 < per ∧
      el.e * (rp + (A.P.RP + apo * 1000)) = A.P.RP + apo * 1000 - rp ∧
      Spec.TwoBodyMotion A.P.GM R U ∧ A.rpVec = some (R 0) ∧ V3.dot (R 0) (U 0) = 0 ∧
      Spec.energy A.P.GM (R 0) (U 0) = -(A.P.GM / (rp + (A.P.RP + apo * 1000))) ∧
      ∀ t, |t| ≤ 30 * per → ∃ X t', (PropOrbiter.mk A apo).timedPosSecant el t = some X ∧ X = R t' ∧
        |t' - t| ≤ 2 * |el.e| * 1.48e-8 * per / (2 * π) := by
  have hra0 : 0 < A.P.RP + apo * 1000 := by linarith
  obtain ⟨el, per, R, U, h1, h2, h3, h4, h5, h6, h7, h8, h9, he, h10⟩ :=
    timed_orbit_run name v rp psi apo hEI A Hv hA hv hrp hH hne hra0
  refine ⟨el, per, R, U, h1, h2, h3, h4, h5, h6, h7, h8, fun t ht => ?_⟩
  have he9 : |el.e| ≤ 0.9 := by
    norm_num
    have hs : 0 < rp + (A.P.RP + apo * 1000) := by linarith
    rw [abs_le]
    constructor
    · by_contra hn
      have := mul_lt_mul_of_pos_right (not_le.mp hn) hs
      linarith
    · by_contra hn
      have := mul_lt_mul_of_pos_right (not_le.mp hn) hs
      linarith
  have hM : |2 * π * t / per| ≤ 199 := by
    have hpi := pi_lt_d2
    norm_num at hpi
    have hpp := pi_pos
    rw [abs_div, abs_of_pos h3, div_le_iff₀ h3, abs_mul, abs_of_pos (by positivity : 0 < 2 * π)]
    have := abs_nonneg t
    nlinarith
  obtain ⟨E, hE⟩ := C56_eccentric_anomaly_returns_wide el.e (2 * π * t / per) he9 hM
  obtain ⟨X, hX⟩ := h10 t E hE
  obtain ⟨t', ht', hXt⟩ := h9 t X hX
  exact ⟨X, t', hX, hXt, ht'⟩

/-- Case for `C56_timed_orbit_secant_wide`: the Earth capture orbit of C56 raised to an apoapsis altitude of 100 000 km
(eccentricity 0.88), any time of the first revolution. -/
example : ∃ (A : Approach) (el : Elements) (per : ℝ), Approach.init "EARTH" ⟨0, 10 * 1, 0⟩ 6771e3 0 false none = .ok A ∧
    (PropOrbiter.mk A 100000).elements = some el ∧ (PropOrbiter.mk A 100000).period el = some per ∧ 0.88 < el.e ∧ 0 < per ∧
    ∀ t, 0 ≤ t → t ≤ per → ∃ X, (PropOrbiter.mk A 100000).timedPosSecant el t = some X := by
  obtain ⟨A, Hv, hA, hv, hH, hne, -⟩ := earth_capture
  have hRP : A.P.RP = 6371e3 := by
    obtain ⟨P, hP, hAP, -⟩ := approach_init_inv hA
    rw [hAP]; simp [Planet.init] at hP; subst hP; rfl
  obtain ⟨el, per, R, U, h1, h2, h3, h4, -, -, -, -, h10⟩ :=
    C56_timed_orbit_secant_wide "EARTH" _ 6771e3 0 100000 none A Hv hA hv (by norm_num) hH hne
      (by rw [hRP]; norm_num) (by rw [hRP]; norm_num)
  rw [hRP] at h4
  norm_num at h4
  refine ⟨A, el, per, hA, h1, h2, by norm_num; linarith, h3, fun t ht htp => ?_⟩
  obtain ⟨X, t', hX, -⟩ := h10 t (by rw [abs_of_nonneg ht]; linarith)
  exact ⟨X, hX⟩

end AMAT.Props
