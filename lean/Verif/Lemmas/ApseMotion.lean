import Verif.Lemmas.TwoBodyUnique
import Verif.Props.OrbitProps

/-
Two-body motions that start at an apse.
-/

noncomputable section

open Real AMAT.Spec AMAT.Props

namespace AMAT

/-- `(R, U)` is an apse: the velocity is perpendicular to the position, the distance is `r`, and the speed is that of an
orbit whose other apse is at distance `x`. -/
def IsApse (GM r x : ℝ) (R U : V3) : Prop :=
  V3.norm R = r ∧ V3.dot R U = 0 ∧ V3.norm U = visViva GM r x r

/-- Half the period of an orbit with the apses `r` and `x`. -/
def halfPeriod (GM r x : ℝ) : ℝ := π * √(((r + x) / 2) ^ 3 / GM)

theorem halfPeriod_symm (GM r x : ℝ) : halfPeriod GM r x = halfPeriod GM x r := by
  unfold halfPeriod; rw [add_comm]

theorem visViva_apse_pos {GM r x : ℝ} (hGM : 0 < GM) (hr : 0 < r) (hx : 0 < x) : 0 < visViva GM r x r := by
  unfold visViva
  refine sqrt_pos.mpr (mul_pos hGM ?_)
  have : 2 / (x + r) < 2 / r := div_lt_div_of_pos_left (by norm_num) hr (by linarith)
  linarith

/-- The speed at an apse in terms of mean motion, semi-major axis and eccentricity. -/
theorem visViva_apse {GM r x a e n : ℝ} (hGM : 0 < GM) (hr : 0 < r) (hx : 0 < x) (ha : a = (r + x) / 2)
    (he : e = (x - r) / (x + r)) (hn0 : 0 < n) (hn : n ^ 2 * a ^ 3 = GM) :
    visViva GM r x r = n * a * sqrt (1 - e ^ 2) / (1 - e) := by
  have hs : 0 < x + r := by linarith
  have e1 : 1 - e = 2 * r / (x + r) := by rw [he]; field_simp; ring
  have e2 : 1 - e ^ 2 = 4 * x * r / (x + r) ^ 2 := by rw [he]; field_simp; ring
  have e3 : 0 ≤ 1 - e ^ 2 := by rw [e2]; positivity
  have ha0 : 0 < a := by rw [ha]; positivity
  unfold visViva
  rw [sqrt_eq_iff_mul_self_eq (visViva_radicand hGM hr hx.le) (by rw [e1]; positivity)]
  have e4 : sqrt (1 - e ^ 2) * sqrt (1 - e ^ 2) = 1 - e ^ 2 := mul_self_sqrt e3
  have e5 : n * a * sqrt (1 - e ^ 2) / (1 - e) * (n * a * sqrt (1 - e ^ 2) / (1 - e))
    = n ^ 2 * a ^ 2 * (sqrt (1 - e ^ 2) * sqrt (1 - e ^ 2)) / ((1 - e) * (1 - e)) := by
    rw [div_mul_div_comm]; ring
  rw [e5, e4, e2, e1, ← hn, ha]
  field_simp
  ring

/-- An apse is left along the ellipse with the two apses: there is a motion that starts there, and every such motion stays
between the two distances, is at the other apse after half a period, and is back after a period, not before. -/
theorem apse_motion {GM r x : ℝ} (hGM : 0 < GM) (hr : 0 < r) (hx : 0 < x) {R0 U0 : V3} (h : IsApse GM r x R0 U0) :
    (∃ R U, TwoBodyMotion GM R U ∧ R 0 = R0 ∧ U 0 = U0) ∧
    ∀ R U, TwoBodyMotion GM R U → R 0 = R0 → U 0 = U0 →
      (∀ t, min r x ≤ V3.norm (R t) ∧ V3.norm (R t) ≤ max r x) ∧
      IsApse GM x r (R (halfPeriod GM r x)) (U (halfPeriod GM r x)) ∧
      R (2 * halfPeriod GM r x) = R0 ∧ U (2 * halfPeriod GM r x) = U0 ∧
      ∀ t, 0 < t → t < 2 * halfPeriod GM r x → R t ≠ R0 := by
  obtain ⟨hr0, hp, hs⟩ := h
  have hv := visViva_apse_pos hGM hr hx
  set a := (r + x) / 2 with ha
  set e := (x - r) / (x + r) with he
  have hsum : 0 < x + r := by linarith
  have ha0 : 0 < a := by positivity
  have h0 : -1 < e := by rw [he, lt_div_iff₀ hsum]; linarith
  have h1 : e < 1 := by rw [he, div_lt_one hsum]; linarith
  set n := √(GM / a ^ 3) with hn
  have hn0 : 0 < n := sqrt_pos.mpr (by positivity)
  have hG : n ^ 2 * a ^ 3 = GM := by rw [hn, sq_sqrt (by positivity)]; field_simp
  have hT : n * halfPeriod GM r x = π := by
    unfold halfPeriod
    rw [← ha, show n * (π * √(a ^ 3 / GM)) = π * (√(GM / a ^ 3) * √(a ^ 3 / GM)) by rw [hn]; ring,
      ← sqrt_mul (by positivity), show GM / a ^ 3 * (a ^ 3 / GM) = 1 by field_simp, sqrt_one, mul_one]
  have hT2 : n * (2 * halfPeriod GM r x) = 0 + 2 * π := by linear_combination 2 * hT
  set u : V3 := (1 / r) • R0 with hu
  set q : V3 := (1 / visViva GM r x r) • U0 with hq
  have huu : V3.dot u u = 1 := by
    rw [hu, V3.dot_smul_left, V3.dot_smul_right, ← V3.norm_sq, hr0]; field_simp
  have hqq : V3.dot q q = 1 := by
    rw [hq, V3.dot_smul_left, V3.dot_smul_right, ← V3.norm_sq, hs]; field_simp
  have huq : V3.dot u q = 0 := by
    rw [hu, hq, V3.dot_smul_left, V3.dot_smul_right, hp]; simp
  have hm := kepler_motion (GM := GM) (n := n) ha0 h0 h1 huu hqq huq hG
  have er : a * (1 - e) = r := by rw [ha, he]; field_simp; ring
  have ex : a * (1 + e) = x := by rw [ha, he]; field_simp; ring
  have ev := visViva_apse hGM hr hx ha he hn0 hG
  have ew : visViva GM x r x = n * a * sqrt (1 - e ^ 2) / (1 + e) := by
    have := visViva_apse (e := -e) hGM hx hr (show a = (x + r) / 2 by rw [ha]; ring)
      (by rw [he, ← neg_div, add_comm x r]; congr 1; ring) hn0 hG
    rw [this, neg_sq, sub_neg_eq_add]
  have hes : 0 < 1 - e := by linarith
  have hep : 0 < 1 + e := by linarith
  have kp0 : kPos a e u q 0 = R0 := by
    unfold kPos
    rw [cos_zero, sin_zero, er, hu]
    ext <;> simp only [V3.add_x, V3.add_y, V3.add_z, V3.smul_x, V3.smul_y, V3.smul_z] <;> field_simp <;> ring
  have kv0 : kVel n a e u q 0 = U0 := by
    unfold kVel
    rw [cos_zero, sin_zero, mul_one, show n * a * sqrt (1 - e ^ 2) * (1 / (1 - e)) = visViva GM r x r by rw [ev]; ring, hq]
    ext <;> simp only [V3.add_x, V3.add_y, V3.add_z, V3.smul_x, V3.smul_y, V3.smul_z] <;> field_simp <;> ring
  have kp1 : kPos a e u q π = (-x) • u := by
    unfold kPos
    rw [cos_pi, sin_pi, show a * (-1 - e) = -x by rw [← ex]; ring]
    ext <;> simp only [V3.add_x, V3.add_y, V3.add_z, V3.smul_x, V3.smul_y, V3.smul_z] <;> ring
  have kv1 : kVel n a e u q π = (-visViva GM x r x) • q := by
    unfold kVel
    rw [cos_pi, sin_pi, show n * a * sqrt (1 - e ^ 2) * (-1 / (1 - e * -1)) = -visViva GM x r x by rw [ew]; ring]
    ext <;> simp only [V3.add_x, V3.add_y, V3.add_z, V3.smul_x, V3.smul_y, V3.smul_z] <;> ring
  have z0 : ecc h0 h1 (n * 0) = 0 := by rw [mul_zero, ecc_zero]
  have z1 : ecc h0 h1 (n * halfPeriod GM r x) = π := by
    rw [hT]
    have := ecc_kep h0 h1 π
    simpa [kep] using this
  have z2 : ecc h0 h1 (n * (2 * halfPeriod GM r x)) = 2 * π := by rw [hT2, ecc_period, ecc_zero, zero_add]
  refine ⟨⟨_, _, hm, ?_, ?_⟩, fun R U hRU hR hU => ?_⟩
  · simp only [z0, kp0]
  · simp only [z0, kv0]
  have hk : ∀ t, V3.norm (kPos a e u q (ecc h0 h1 (n * t))) = a * (1 - e * cos (ecc h0 h1 (n * t))) := fun t =>
    kPos_norm ha0 h0 h1 huu hqq huq _
  have huniq := twoBody_unique hm hRU (fun t => by rw [hk]; exact mul_pos ha0 (kep_den h0 h1 _)) 0
    (by simp only [z0, kp0, hR]) (by simp only [z0, kv0, hU])
  refine ⟨fun t => ?_, ?_, ?_, ?_, fun t ht0 ht1 heq => ?_⟩
  · rw [← (huniq t).1, hk]
    have c1 := cos_le_one (ecc h0 h1 (n * t))
    have c2 := neg_one_le_cos (ecc h0 h1 (n * t))
    generalize cos (ecc h0 h1 (n * t)) = c at c1 c2
    have e1 : a * (1 - e * c) = (r * (1 + c) + x * (1 - c)) / 2 := by rw [← er, ← ex]; ring
    rw [e1]
    have m1 := min_le_left r x
    have m2 := min_le_right r x
    have m3 := le_max_left r x
    have m4 := le_max_right r x
    constructor <;> nlinarith
  · rw [← (huniq _).1, ← (huniq _).2]
    simp only [z1, kp1, kv1]
    have nu : V3.norm u = 1 := V3.norm_eq_of_sq zero_le_one (by rw [huu]; norm_num)
    have nq : V3.norm q = 1 := V3.norm_eq_of_sq zero_le_one (by rw [hqq]; norm_num)
    refine ⟨?_, ?_, ?_⟩
    · rw [V3.norm_smul, nu, abs_neg, abs_of_pos hx, mul_one]
    · rw [V3.dot_smul_left, V3.dot_smul_right, huq]; simp
    · rw [V3.norm_smul, nq, abs_neg, abs_of_pos (visViva_apse_pos hGM hx hr), mul_one]
  · rw [← (huniq _).1]
    simp only [z2]
    rw [← kp0]; unfold kPos; rw [cos_two_pi, sin_two_pi, cos_zero, sin_zero]
  · rw [← (huniq _).2]
    simp only [z2]
    rw [← kv0]; unfold kVel; rw [cos_two_pi, sin_two_pi, cos_zero, sin_zero]
  · rw [← (huniq t).1, ← kp0] at heq
    set E := ecc h0 h1 (n * t) with hEd
    have hkE : kep e E = n * t := kep_ecc h0 h1 _
    have hmono := kep_strictMono h0 h1
    have b0 : 0 < E := by
      rw [← hmono.lt_iff_lt, hkE]
      simp only [kep, sin_zero, mul_zero, sub_zero]
      positivity
    have b1 : E < 2 * π := by
      rw [← hmono.lt_iff_lt, hkE]
      simp only [kep, sin_two_pi, mul_zero, sub_zero]
      have := mul_lt_mul_of_pos_left ht1 hn0
      linarith
    have hd := congrArg (fun v => V3.dot v u) heq
    have hdot : ∀ y z : ℝ, V3.dot (y • u + z • q) u = y := by
      intro y z
      have : V3.dot (y • u + z • q) u = y * V3.dot u u + z * V3.dot u q := by
        simp only [V3.dot, V3.add_x, V3.add_y, V3.add_z, V3.smul_x, V3.smul_y, V3.smul_z]; ring
      rw [this, huu, huq]; ring
    simp only [kPos, hdot, cos_zero] at hd
    have hcos : cos E = 1 := by
      have := mul_left_cancel₀ ha0.ne' hd
      linarith
    exact b0.ne' ((cos_eq_one_iff_of_lt_of_lt (by linarith [pi_pos]) b1).mp hcos)

end AMAT
