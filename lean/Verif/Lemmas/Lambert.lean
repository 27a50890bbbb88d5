import Verif.Lemmas.Hyperbola
import Mathlib.Analysis.SpecialFunctions.Arsinh
import Mathlib.Analysis.SpecialFunctions.Trigonometric.Bounds

/-
Helper lemmas: Lambert's problem for a hyperbola, transfer angle below a half turn.
-/

noncomputable section

namespace AMAT

open Real

/-- The arc with half anomaly difference `B` and `cosh A = e cosh(mean anomaly)`; `p = cosh A`, `c = cosh B`, `s = sinh B`. -/
theorem lambert_arc {GM a n r p c s B D : ℝ} {R1 R2 : V3} (ha : 0 < a) (hn : 0 < n) (hGM : n ^ 2 * a ^ 3 = GM) (hr : 0 < r)
    (hc : c = cosh B) (hs : s = sinh B) (hB : 0 < B) (hpc : c < p)
    (h1 : V3.dot R1 R1 = (a * r) ^ 2) (h2 : V3.dot R2 R2 = (a * (2 * (p * c - 1) - r)) ^ 2)
    (h12 : V3.dot R1 R2 = D) (hD : D = 2 * a ^ 2 * (p - c) ^ 2 - (a * r) * (a * (2 * (p * c - 1) - r)))
    (hP : 0 < 2 * r * (p * c - 1) - r ^ 2 - (p - c) ^ 2) {f g : ℝ} (hf : f = 1 - 2 * s ^ 2 / r) (hg : g = 2 / n * (p - c) * s) :
    g ≠ 0 ∧ V3.dot ((1 / g) • (R2 - f • R1)) ((1 / g) • (R2 - f • R1)) = GM * (2 / (a * r) + 1 / a) ∧
    0 < 2 * p * s - 2 * B ∧
    ∃ Rt Ut : ℝ → V3, Spec.TwoBodyMotion GM Rt Ut ∧ Rt 0 = R1 ∧ Ut 0 = (1 / g) • (R2 - f • R1) ∧
      Rt (1 / n * (2 * p * s - 2 * B)) = R2 ∧
      ∃ fd gd : ℝ, Ut (1 / n * (2 * p * s - 2 * B)) = fd • R1 + gd • ((1 / g) • (R2 - f • R1)) ∧ f * gd - fd * g = 1 := by
  have hs0 : 0 < s := by rw [hs]; exact sinh_pos_iff.mpr hB
  have hc1 : 1 ≤ c := by rw [hc]; exact one_le_cosh B
  have cs : c ^ 2 = s ^ 2 + 1 := by rw [hc, hs]; exact cosh_sq B
  have hd : 0 < p - c := by linarith
  have hg0 : g ≠ 0 := by rw [hg]; positivity
  set σ := ((p - c) - r * c) / s with hσ
  have hσs : σ * s = (p - c) - r * c := by rw [hσ]; field_simp
  have keyRV : V3.dot R1 ((1 / g) • (R2 - f • R1)) = n * a ^ 2 * σ := by
    have : V3.dot R1 ((1 / g) • (R2 - f • R1)) = (1 / g) * (V3.dot R1 R2 - f * V3.dot R1 R1) := by
      simp only [V3.dot, V3.sub_x, V3.sub_y, V3.sub_z, V3.smul_x, V3.smul_y, V3.smul_z]; ring
    rw [this, h12, h1, hD, hf, hg, hσ]
    field_simp
    linear_combination (-2 * r) * cs
  have keyVV : V3.dot ((1 / g) • (R2 - f • R1)) ((1 / g) • (R2 - f • R1)) = n ^ 2 * a ^ 2 * (2 / r + 1) := by
    have : V3.dot ((1 / g) • (R2 - f • R1)) ((1 / g) • (R2 - f • R1)) =
        (1 / g) ^ 2 * (V3.dot R2 R2 - 2 * f * V3.dot R1 R2 + f ^ 2 * V3.dot R1 R1) := by
      simp only [V3.dot, V3.sub_x, V3.sub_y, V3.sub_z, V3.smul_x, V3.smul_y, V3.smul_z]; ring
    rw [this, h12, h1, h2, hD, hf, hg]
    have hs2 : s ^ 2 = c ^ 2 - 1 := by linarith
    have e1 : (1 / (2 / n * (p - c) * s)) ^ 2 = n ^ 2 / (4 * (p - c) ^ 2 * (c ^ 2 - 1)) := by
      rw [← hs2]; field_simp; ring
    have hc2 : c ^ 2 - 1 ≠ 0 := by rw [← hs2]; positivity
    rw [e1, hs2]
    field_simp
    ring
  have hel : 1 < (1 + r) ^ 2 - σ ^ 2 := by
    have e1 : ((1 + r) ^ 2 - σ ^ 2 - 1) * s ^ 2 = 2 * r * (p * c - 1) - r ^ 2 - (p - c) ^ 2 := by
      have : σ ^ 2 * s ^ 2 = ((p - c) - r * c) ^ 2 := by rw [← mul_pow, hσs]
      linear_combination -this - (2 * r + r ^ 2) * cs
    have : 0 < (1 + r) ^ 2 - σ ^ 2 - 1 := by
      by_contra hneg
      push Not at hneg
      have := mul_nonpos_of_nonpos_of_nonneg hneg (sq_nonneg s)
      linarith
    linarith
  have c2 : cosh (2 * B) - 1 = 2 * s ^ 2 := by rw [cosh_two_mul, ← hc, ← hs]; linarith
  have s2 : sinh (2 * B) = 2 * s * c := by rw [sinh_two_mul, ← hc, ← hs]
  obtain ⟨Rt, Ut, m1, m2, m3, m4, fd, gd, m5, m6⟩ := hyper_arc (x := 2 * B) ha hn hr hel h1 keyRV keyVV hGM
  have hK2 : hK r σ (2 * B) = 2 * p * s - 2 * B := by
    unfold hK
    rw [c2, s2]
    linear_combination (2 * s) * hσs
  have e1 : 1 / n * (r * (2 * s * c) + σ * (2 * s ^ 2)) = g := by
    rw [hg]; linear_combination (2 / n * s) * hσs
  rw [c2, s2, e1, ← hf] at m6
  refine ⟨hg0, ?_, ?_, Rt, Ut, m1, m2, m3, ?_, fd, gd, by rw [← hK2, m5], m6⟩
  · rw [keyVV, ← hGM]; field_simp
  · rw [← hK2, ← hK_zero r σ]
    exact hK_strictMono hr hel (by linarith)
  · rw [← hK2, m4, c2, s2]
    rw [e1, ← hf]
    ext <;> simp <;> field_simp <;> ring

/-- The quantities computed for a spacecraft leg. -/
theorem lambert_facts {a r1 r2 d C S al be : ℝ} (ha : 0 < a) (h1 : 0 < r1) (h2 : 0 < r2) (hd0 : 0 < d) (hdpi : d < π)
    (hC : C = sqrt (r2 ^ 2 + r1 ^ 2 - 2 * r2 * r1 * cos d)) (hS : S = 1 / 2 * (r2 + r1 + C))
    (hal : al = 2 * arsinh (sqrt (S / (2 * a)))) (hbe : be = 2 * arsinh (sqrt ((S - C) / (2 * a)))) :
    ∃ A B : ℝ, 0 < B ∧ al = A + B ∧ be = A - B ∧ cosh B < cosh A ∧ 0 < C ∧ 0 ≤ S ∧ 0 ≤ S - C ∧
      r1 + r2 = 2 * a * (cosh A * cosh B - 1) ∧ C = 2 * a * sinh A * sinh B ∧
      r1 * r2 * (1 + cos d) = 2 * a ^ 2 * (cosh A - cosh B) ^ 2 ∧
      r1 * r2 * (1 - cos d) = 2 * (S - r1) * (S - r2) := by
  have hc1 : cos d < 1 := by
    have := strictAntiOn_cos ⟨le_refl 0, pi_pos.le⟩ ⟨hd0.le, hdpi.le⟩ hd0
    simpa using this
  have hc2 : -1 < cos d := by
    have := strictAntiOn_cos ⟨hd0.le, hdpi.le⟩ ⟨pi_pos.le, le_refl π⟩ hdpi
    simpa using this
  have hrr : 0 < r1 * r2 := by positivity
  have hq : 0 < r2 ^ 2 + r1 ^ 2 - 2 * r2 * r1 * cos d := by nlinarith [sq_nonneg (r1 - r2)]
  have hC0 : 0 < C := by rw [hC]; exact sqrt_pos.mpr hq
  have hCsq : C ^ 2 = r2 ^ 2 + r1 ^ 2 - 2 * r2 * r1 * cos d := by rw [hC]; exact sq_sqrt hq.le
  have hCl : C < r1 + r2 := by
    by_contra hneg
    push Not at hneg
    nlinarith
  have hS0 : 0 < S := by rw [hS]; linarith
  have hSC : 0 < S - C := by rw [hS]; linarith
  have ca : cosh al = 1 + S / a := by
    rw [hal, cosh_two_mul, cosh_sq, sinh_arsinh, sq_sqrt (by positivity)]; field_simp; ring
  have cb : cosh be = 1 + (S - C) / a := by
    rw [hbe, cosh_two_mul, cosh_sq, sinh_arsinh, sq_sqrt (by positivity)]; field_simp; ring
  have ha0 : 0 < al := by rw [hal]; have := arsinh_pos_iff.mpr (sqrt_pos.mpr (by positivity : 0 < S / (2 * a))); linarith
  have hb0 : 0 < be := by rw [hbe]; have := arsinh_pos_iff.mpr (sqrt_pos.mpr (by positivity : 0 < (S - C) / (2 * a))); linarith
  have hlt : be < al := by
    rw [hal, hbe]
    have : arsinh (sqrt ((S - C) / (2 * a))) < arsinh (sqrt (S / (2 * a))) := by
      apply arsinh_lt_arsinh.mpr
      apply sqrt_lt_sqrt (by positivity)
      apply div_lt_div_of_pos_right _ (by positivity)
      linarith
    linarith
  have eA : (al + be) / 2 + (al - be) / 2 = al := by ring
  have eB : (al + be) / 2 - (al - be) / 2 = be := by ring
  have pa : cosh al = cosh ((al + be) / 2) * cosh ((al - be) / 2) + sinh ((al + be) / 2) * sinh ((al - be) / 2) := by
    rw [← cosh_add, eA]
  have pb : cosh be = cosh ((al + be) / 2) * cosh ((al - be) / 2) - sinh ((al + be) / 2) * sinh ((al - be) / 2) := by
    rw [← cosh_sub, eB]
  have sA := cosh_sq ((al + be) / 2)
  have sB := cosh_sq ((al - be) / 2)
  have x1 : S = a * (cosh al - 1) := by rw [ca]; field_simp; ring
  have x2 : S - C = a * (cosh be - 1) := by rw [cb]; field_simp; ring
  have hsum : r1 + r2 = S + (S - C) := by rw [hS]; ring
  refine ⟨(al + be) / 2, (al - be) / 2, by linarith, by ring, by ring, ?_, hC0, hS0.le, hSC.le, ?_, ?_, ?_, ?_⟩
  · rw [cosh_lt_cosh, abs_of_pos (by linarith : 0 < (al - be) / 2), abs_of_pos (by linarith : 0 < (al + be) / 2)]; linarith
  · rw [hsum]; linear_combination x1 + x2 + a * pa + a * pb
  · linear_combination x1 - x2 + a * pa - a * pb
  · have e1 : r1 * r2 * (1 + cos d) = 2 * S * (S - C) := by
      rw [hS]; linear_combination (1 / 2 : ℝ) * hCsq
    rw [e1, x2]
    have : (cosh al - 1) * (cosh be - 1) = (cosh ((al + be) / 2) - cosh ((al - be) / 2)) ^ 2 := by
      rw [pa, pb]
      linear_combination sinh ((al - be) / 2) ^ 2 * sA + (cosh ((al + be) / 2) ^ 2 - 1) * sB
    rw [show 2 * S * (a * (cosh be - 1)) = 2 * a * S * (cosh be - 1) by ring, x1]
    linear_combination 2 * a ^ 2 * this
  · rw [hS]; linear_combination (-1 / 2 : ℝ) * hCsq

/-- The velocity computed for a spacecraft leg starts a two-body motion that reaches the target at the computed time. -/
theorem lambert_motion {GM a r1 r2 d C S al be P : ℝ} {R1 R2 : V3} (hg : 0 < GM) (ha : 0 < a) (h1 : 0 < r1) (h2 : 0 < r2)
    (hd0 : 0 < d) (hdpi : d < π)
    (hC : C = sqrt (r2 ^ 2 + r1 ^ 2 - 2 * r2 * r1 * cos d)) (hS : S = 1 / 2 * (r2 + r1 + C))
    (hal : al = 2 * arsinh (sqrt (S / (2 * a)))) (hbe : be = 2 * arsinh (sqrt ((S - C) / (2 * a))))
    (hP : P = 4 * a * (S - r2) * (S - r1) / C ^ 2 * sinh (1 / 2 * (al + be)) ^ 2)
    (hR1 : V3.norm R1 = r1) (hR2 : V3.norm R2 = r2) (hR12 : V3.dot R1 R2 = r1 * r2 * cos d) :
    ∃ f g : ℝ, f = 1 - r2 / P * (1 - cos d) ∧ g = r1 * r2 / sqrt (GM * P) * sin d ∧ 0 < P ∧ g ≠ 0 ∧
    V3.dot ((1 / g) • (R2 - f • R1)) ((1 / g) • (R2 - f • R1)) = GM * (2 / r1 + 1 / a) ∧
    0 < (sinh al - al) - (sinh be - be) ∧
    ∃ Rt Ut : ℝ → V3, Spec.TwoBodyMotion GM Rt Ut ∧ Rt 0 = R1 ∧ Ut 0 = (1 / g) • (R2 - f • R1) ∧
      Rt (sqrt (a ^ 3 / GM) * ((sinh al - al) - (sinh be - be))) = R2 ∧
      ∃ fd gd : ℝ, Ut (sqrt (a ^ 3 / GM) * ((sinh al - al) - (sinh be - be))) =
        fd • R1 + gd • ((1 / g) • (R2 - f • R1)) ∧ f * gd - fd * g = 1 := by
  obtain ⟨A, B, hB, eal, ebe, hAB, hC0, hS0, hSC, q1, q2, q3, q4⟩ := lambert_facts ha h1 h2 hd0 hdpi hC hS hal hbe
  have hs0 : 0 < sinh B := sinh_pos_iff.mpr hB
  have hsA : 0 < sinh A := by
    by_contra hneg
    push Not at hneg
    have : 2 * a * sinh A * sinh B ≤ 0 := by
      have : sinh A * sinh B ≤ 0 := mul_nonpos_of_nonpos_of_nonneg hneg hs0.le
      nlinarith
    linarith
  have hsd : 0 < sin d := sin_pos_of_pos_of_lt_pi hd0 hdpi
  have hc1 : cos d < 1 := by nlinarith [sin_sq_add_cos_sq d, neg_one_le_cos d]
  have hrr : 0 < r1 * r2 := by positivity
  -- the time unit
  set n := sqrt (GM / a ^ 3) with hn
  have hn0 : 0 < n := sqrt_pos.mpr (by positivity)
  have hn2 : n ^ 2 * a ^ 3 = GM := by rw [hn, sq_sqrt (by positivity)]; field_simp
  have hn1 : sqrt (a ^ 3 / GM) = 1 / n := by rw [hn, ← inv_div, sqrt_inv, one_div]
  -- the semi-latus rectum
  have hP1 : P = r1 * r2 * (1 - cos d) / (2 * a * sinh B ^ 2) := by
    have e1 : (1:ℝ) / 2 * (al + be) = A := by rw [eal, ebe]; ring
    rw [hP, q4, q2, e1]
    field_simp
    ring
  have hm : 0 < 1 - cos d := by linarith
  have hP0 : 0 < P := by rw [hP1]; positivity
  have hf : 1 - r2 / P * (1 - cos d) = 1 - 2 * sinh B ^ 2 / (r1 / a) := by
    rw [hP1]; field_simp
  have hgs : r1 * r2 / sqrt (GM * P) * sin d = 2 / n * (cosh A - cosh B) * sinh B := by
    have hpos : 0 < cosh A - cosh B := by linarith
    apply (pow_left_inj₀ (by positivity) (by positivity) two_ne_zero).mp
    have e1 : (r1 * r2 / sqrt (GM * P) * sin d) ^ 2 = (r1 * r2) ^ 2 * sin d ^ 2 / (GM * P) := by
      rw [mul_pow, div_pow, sq_sqrt (by positivity)]; ring
    have e2 : (2 / n * (cosh A - cosh B) * sinh B) ^ 2 = 4 * (cosh A - cosh B) ^ 2 * sinh B ^ 2 / n ^ 2 := by
      field_simp; ring
    have e3 : n ^ 2 = GM / a ^ 3 := by rw [← hn2]; field_simp
    have e4 : sin d ^ 2 = (1 - cos d) * (1 + cos d) := by linear_combination sin_sq_add_cos_sq d
    have e5 : (cosh A - cosh B) ^ 2 = r1 * r2 * (1 + cos d) / (2 * a ^ 2) := by rw [q3]; field_simp
    rw [e1, e2, e3, e4, e5, hP1]
    field_simp
    ring
  have hr2 : r2 = a * (2 * (cosh A * cosh B - 1) - r1 / a) := by
    have : a * (r1 / a) = r1 := by field_simp
    linear_combination q1 + this
  have hr1 : r1 = a * (r1 / a) := by field_simp
  have hcore := lambert_arc (GM := GM) (a := a) (n := n) (r := r1 / a) (p := cosh A) (c := cosh B) (s := sinh B) (B := B)
    (D := r1 * r2 * cos d) (R1 := R1) (R2 := R2) ha hn0 hn2 (by positivity) rfl rfl hB hAB
    (by rw [← V3.norm_sq, hR1, ← hr1]) (by rw [← V3.norm_sq, hR2, ← hr2]) hR12
    (by rw [← hr1, ← hr2]; linear_combination q3)
    (by
      have : a ^ 2 * (2 * (r1 / a) * (cosh A * cosh B - 1) - (r1 / a) ^ 2 - (cosh A - cosh B) ^ 2) = r1 * r2 * (1 - cos d) / 2 := by
        have e1 : a ^ 2 * (2 * (r1 / a) * (cosh A * cosh B - 1) - (r1 / a) ^ 2 - (cosh A - cosh B) ^ 2) =
          r1 * (2 * a * (cosh A * cosh B - 1)) - r1 ^ 2 - a ^ 2 * (cosh A - cosh B) ^ 2 := by field_simp
        rw [e1, ← q1]; linear_combination (1 / 2 : ℝ) * q3
      have h3 : 0 < a ^ 2 * (2 * (r1 / a) * (cosh A * cosh B - 1) - (r1 / a) ^ 2 - (cosh A - cosh B) ^ 2) := by
        rw [this]; positivity
      exact pos_of_mul_pos_right h3 (by positivity)) rfl rfl
  rw [← hf, ← hgs, ← hr1] at hcore
  have htime : (sinh al - al) - (sinh be - be) = 2 * cosh A * sinh B - 2 * B := by
    rw [eal, ebe, sinh_add, sinh_sub]; ring
  rw [htime, hn1]
  exact ⟨_, _, rfl, rfl, hP0, hcore⟩

/-- On an arc ending at periapsis the semi-latus rectum computed from Lambert's problem is that of the hyperbola. -/
theorem lambert_own {a e x r1 r2 d C S al be P : ℝ} (ha : 0 < a) (he : 1 < e) (hx : 0 < x) (hd0 : 0 < d) (hdpi : d < π)
    (hr1 : r1 = a * (e * cosh x - 1)) (hr2 : r2 = a * (e - 1)) (hcd : cos d = (e - cosh x) / (e * cosh x - 1))
    (hC : C = sqrt (r2 ^ 2 + r1 ^ 2 - 2 * r2 * r1 * cos d)) (hS : S = 1 / 2 * (r2 + r1 + C))
    (hal : al = 2 * arsinh (sqrt (S / (2 * a)))) (hbe : be = 2 * arsinh (sqrt ((S - C) / (2 * a))))
    (hP : P = 4 * a * (S - r2) * (S - r1) / C ^ 2 * sinh (1 / 2 * (al + be)) ^ 2) : P = a * (e ^ 2 - 1) := by
  have hc1 := one_le_cosh x
  have hex : 0 < e * cosh x - 1 := by nlinarith
  have he1 : 0 < e - 1 := by linarith
  have h1 : 0 < r1 := by rw [hr1]; positivity
  have h2 : 0 < r2 := by rw [hr2]; positivity
  obtain ⟨A, B, hB, eal, ebe, hAB, hC0, hS0, hSC, q1, q2, q3, q4⟩ := lambert_facts ha h1 h2 hd0 hdpi hC hS hal hbe
  have hs0 : 0 < sinh B := sinh_pos_iff.mpr hB
  have hx2 : cosh x = 2 * cosh (x / 2) ^ 2 - 1 := by
    have := cosh_two_mul (x / 2)
    rw [show 2 * (x / 2) = x by ring, cosh_sq (x / 2)] at this
    rw [this, cosh_sq]; ring
  have hy1 := one_le_cosh (x / 2)
  have hpc : cosh A * cosh B = e * cosh (x / 2) * cosh (x / 2) := by
    have : 2 * a * (cosh A * cosh B) = 2 * a * (e * cosh (x / 2) * cosh (x / 2)) := by
      rw [hr1, hr2] at q1
      linear_combination -q1 + a * e * hx2
    exact mul_left_cancel₀ (by positivity) this
  have hdiff : cosh A - cosh B = e * cosh (x / 2) - cosh (x / 2) := by
    apply (pow_left_inj₀ (by linarith) (by nlinarith) two_ne_zero).mp
    have e1 : r1 * r2 * (1 + cos d) = a ^ 2 * (e - 1) ^ 2 * (cosh x + 1) := by
      rw [hcd, hr1, hr2]; field_simp; ring
    have : 2 * a ^ 2 * (cosh A - cosh B) ^ 2 = 2 * a ^ 2 * (e * cosh (x / 2) - cosh (x / 2)) ^ 2 := by
      rw [← q3, e1, hx2]; ring
    exact mul_left_cancel₀ (by positivity) this
  have hsum : cosh A + cosh B = e * cosh (x / 2) + cosh (x / 2) := by
    have hA0 := cosh_pos A; have hB0 := cosh_pos B
    apply (pow_left_inj₀ (by linarith) (by positivity) two_ne_zero).mp
    have : (cosh A - cosh B) ^ 2 = (e * cosh (x / 2) - cosh (x / 2)) ^ 2 := by rw [hdiff]
    linear_combination this + 4 * hpc
  have hcB : cosh B = cosh (x / 2) := by linarith
  have hsB : sinh B ^ 2 = (cosh x - 1) / 2 := by
    have := cosh_sq B
    rw [hcB] at this
    rw [hx2]; linarith
  have hx1 : 1 < cosh x := one_lt_cosh.mpr hx.ne'
  have hsA : sinh A ≠ 0 := by
    intro h0; rw [h0] at q2; simp at q2; linarith
  have e1 : (1:ℝ) / 2 * (al + be) = A := by rw [eal, ebe]; ring
  have hP1 : P = r1 * r2 * (1 - cos d) / (2 * a * sinh B ^ 2) := by
    rw [hP, q4, q2, e1]
    field_simp
    ring
  have hx0 : cosh x - 1 ≠ 0 := by linarith
  rw [hP1, hsB, hcd, hr1, hr2]
  field_simp
  ring

end AMAT
