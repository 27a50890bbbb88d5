import Verif.Lemmas.TwoBodyUnique
import Verif.Lemmas.Hyperbola
import Verif.Lemmas.TwoBody
import Mathlib.Analysis.SpecialFunctions.Arsinh
import Mathlib.Analysis.SpecialFunctions.Complex.Arg

/-
The time at which a two-body motion on a hyperbola has a given true anomaly.
-/

noncomputable section

open Real

namespace AMAT

/-- Hyperbolic anomaly at the true anomaly `t`. -/
def hypAnomaly (e t : ℝ) : ℝ := arsinh (√(e ^ 2 - 1) * (sin t / (1 + e * cos t)))

/-- Largest true anomaly of a hyperbola. -/
def asymptote (e : ℝ) : ℝ := arccos (-(1 / e))

section
variable {e : ℝ} (he : 1 < e)
include he

theorem asym_range : -1 < -(1 / e) ∧ -(1 / e) < 0 := by
  have h1 : 1 / e < 1 := by rw [div_lt_one (by linarith)]; exact he
  have h0 : 0 < 1 / e := by positivity
  constructor <;> linarith

theorem asym_iff {t : ℝ} (h1 : -π < t) (h2 : t ≤ π) : t ∈ Set.Ioo (-asymptote e) (asymptote e) ↔ 0 < 1 + e * cos t := by
  obtain ⟨a1, a2⟩ := asym_range he
  have ht : |t| = arccos (cos t) := by
    rw [← cos_abs, arccos_cos (abs_nonneg t) (abs_le.mpr ⟨h1.le, h2⟩)]
  have e0 : 0 < e := by linarith
  have e1 : 0 < 1 + e * cos t ↔ -(1 / e) < cos t := by
    have : cos t - -(1 / e) = (1 + e * cos t) / e := by field_simp; ring
    rw [← sub_pos (a := cos t), this, div_pos_iff_of_pos_right e0]
  rw [Set.mem_Ioo, ← abs_lt, ht, asymptote, e1]
  constructor
  · intro h
    by_contra hc
    exact absurd h (not_lt.mpr (arccos_le_arccos (not_lt.mp hc)))
  · intro h
    exact arccos_lt_arccos a1.le h (cos_le_one t)

theorem asym_pos {t : ℝ} (ht : t ∈ Set.Ioo (-asymptote e) (asymptote e)) : 0 < 1 + e * cos t := by
  obtain ⟨a1, a2⟩ := asym_range he
  have hp : asymptote e < π := by
    have := arccos_lt_arccos (le_refl (-1)) a1 (by linarith)
    rwa [arccos_neg_one] at this
  exact (asym_iff he (by linarith [ht.1]) (by linarith [ht.2])).mp ht

theorem hypAnomaly_mono : StrictMonoOn (hypAnomaly e) (Set.Ioo (-asymptote e) (asymptote e)) := by
  have hb : 0 < √(e ^ 2 - 1) := sqrt_pos.mpr (by nlinarith)
  have hd : ∀ t ∈ Set.Ioo (-asymptote e) (asymptote e), HasDerivAt (fun t => sin t / (1 + e * cos t))
      ((cos t * (1 + e * cos t) - sin t * (e * -sin t)) / (1 + e * cos t) ^ 2) t := by
    intro t ht
    have h1 : HasDerivAt (fun t => 1 + e * cos t) (e * -sin t) t := by
      simpa using ((hasDerivAt_cos t).const_mul e).const_add 1
    exact (hasDerivAt_sin t).fun_div h1 (asym_pos he ht).ne'
  have hm : StrictMonoOn (fun t => sin t / (1 + e * cos t)) (Set.Ioo (-asymptote e) (asymptote e)) := by
    apply strictMonoOn_of_deriv_pos (convex_Ioo _ _)
    · exact fun t ht => (hd t ht).continuousAt.continuousWithinAt
    · intro t ht
      rw [interior_Ioo] at ht
      rw [(hd t ht).deriv]
      have hp := asym_pos he ht
      have sc := sin_sq_add_cos_sq t
      have : cos t * (1 + e * cos t) - sin t * (e * -sin t) = cos t + e := by linear_combination e * sc
      rw [this]
      have := neg_one_le_cos t
      have : 0 < cos t + e := by linarith
      positivity
  intro x hx y hy hxy
  exact arsinh_lt_arsinh.mpr (mul_lt_mul_of_pos_left (hm hx hy hxy) hb)

/-- Sine and cosine of the true anomaly at a hyperbolic anomaly, and back. -/
theorem hypAnomaly_trig {t x : ℝ} (ht : t ∈ Set.Ioo (-asymptote e) (asymptote e)) (hx : x = hypAnomaly e t) :
    0 < e * cosh x - 1 ∧ cos t = (e - cosh x) / (e * cosh x - 1) ∧ sin t = √(e ^ 2 - 1) * sinh x / (e * cosh x - 1) := by
  have hp := asym_pos he ht
  have hb2 : √(e ^ 2 - 1) ^ 2 = e ^ 2 - 1 := sq_sqrt (by nlinarith)
  have hs : sinh x = √(e ^ 2 - 1) * (sin t / (1 + e * cos t)) := by rw [hx, hypAnomaly, sinh_arsinh]
  have sc := sin_sq_add_cos_sq t
  have := neg_one_le_cos t
  have hec : 0 < e + cos t := by linarith
  have hc : cosh x = (e + cos t) / (1 + e * cos t) := by
    have h2 : cosh x ^ 2 = ((e + cos t) / (1 + e * cos t)) ^ 2 := by
      rw [cosh_sq, hs, mul_pow, hb2]
      field_simp
      linear_combination (e ^ 2 - 1) * sc
    exact (pow_left_inj₀ (cosh_pos x).le (by positivity) two_ne_zero).mp h2
  have hD : e * cosh x - 1 = (e ^ 2 - 1) / (1 + e * cos t) := by rw [hc]; field_simp; ring
  have he2 : 0 < e ^ 2 - 1 := by nlinarith
  refine ⟨by rw [hD]; positivity, ?_, ?_⟩
  · rw [hD, hc, eq_div_iff (by positivity)]
    rw [mul_div_assoc', eq_sub_iff_add_eq, ← add_div, div_eq_iff hp.ne']
    ring
  · rw [hD, hs]; field_simp; rw [hb2]

theorem hypAnomaly_surj (x : ℝ) : ∃ t ∈ Set.Ioo (-asymptote e) (asymptote e), hypAnomaly e t = x := by
  have hc1 := one_le_cosh x
  have hD : 0 < e * cosh x - 1 := by nlinarith
  have he2 : 0 < e ^ 2 - 1 := by nlinarith
  have hb2 : √(e ^ 2 - 1) ^ 2 = e ^ 2 - 1 := sq_sqrt he2.le
  have hb : 0 < √(e ^ 2 - 1) := sqrt_pos.mpr he2
  set z : ℂ := ⟨(e - cosh x) / (e * cosh x - 1), √(e ^ 2 - 1) * sinh x / (e * cosh x - 1)⟩ with hz
  have hn : ‖z‖ = 1 := by
    have : ‖z‖ ^ 2 = 1 := by
      rw [Complex.sq_norm, Complex.normSq_apply, hz]
      have cs := cosh_sq x
      field_simp
      rw [hb2]
      linear_combination (-(e ^ 2 - 1)) * cs
    exact (pow_eq_one_iff_of_nonneg (norm_nonneg z) two_ne_zero).mp this
  have hz0 : z ≠ 0 := by intro h; rw [h, norm_zero] at hn; exact zero_ne_one hn
  have hcos : cos z.arg = (e - cosh x) / (e * cosh x - 1) := by rw [Complex.cos_arg hz0, hn, div_one]
  have hsin : sin z.arg = √(e ^ 2 - 1) * sinh x / (e * cosh x - 1) := by rw [Complex.sin_arg, hn, div_one]
  have h1 : 1 + e * cos z.arg = (e ^ 2 - 1) / (e * cosh x - 1) := by rw [hcos]; field_simp; ring
  refine ⟨z.arg, (asym_iff he (Complex.neg_pi_lt_arg z) (Complex.arg_le_pi z)).mpr (by rw [h1]; positivity), ?_⟩
  rw [hypAnomaly, h1, hsin]
  have : √(e ^ 2 - 1) * (√(e ^ 2 - 1) * sinh x / (e * cosh x - 1) / ((e ^ 2 - 1) / (e * cosh x - 1))) = sinh x := by
    have := hD.ne'
    have := he2.ne'
    generalize e * cosh x - 1 = D at *
    field_simp
    rw [hb2]
  rw [this, arsinh_sinh]
end

theorem hypAnomaly_zero (e : ℝ) : hypAnomaly e 0 = 0 := by unfold hypAnomaly; simp

/-- A hyperbola is flown from asymptote to asymptote: from the periapsis there is a motion, and every such motion has each true
anomaly between the asymptotes at one time, in order, with the position and velocity of the conic. -/
theorem hyper_clock {GM h e : ℝ} {u w : V3} (hGM : 0 < GM) (hh : 0 < h) (he : 1 < e) (hu : V3.dot u u = 1)
    (hw : V3.dot w w = 1) (huw : V3.dot u w = 0) :
    (∃ R U, Spec.TwoBodyMotion GM R U ∧ R 0 = cPos (h ^ 2 / GM) e u (V3.cross w u) 0 ∧
      U 0 = cVel (GM / h) e u (V3.cross w u) 0) ∧
    ∀ R U, Spec.TwoBodyMotion GM R U → R 0 = cPos (h ^ 2 / GM) e u (V3.cross w u) 0 →
      U 0 = cVel (GM / h) e u (V3.cross w u) 0 →
      ∃ τ : ℝ → ℝ, τ 0 = 0 ∧ StrictMonoOn τ (Set.Ioo (-asymptote e) (asymptote e)) ∧
        (∀ s, ∃ t ∈ Set.Ioo (-asymptote e) (asymptote e), τ t = s) ∧
        ∀ t ∈ Set.Ioo (-asymptote e) (asymptote e), R (τ t) = cPos (h ^ 2 / GM) e u (V3.cross w u) t ∧
          U (τ t) = cVel (GM / h) e u (V3.cross w u) t := by
  have he2 : 0 < e ^ 2 - 1 := by nlinarith
  set b := √(e ^ 2 - 1) with hbd
  have hb2 : b ^ 2 = e ^ 2 - 1 := sq_sqrt he2.le
  have hb : 0 < b := sqrt_pos.mpr he2
  set q := V3.cross w u with hq
  have qq : V3.dot q q = 1 := by rw [hq, V3.dot_cross_self, hw, hu, V3.dot_comm, huw]; norm_num
  have uq : V3.dot u q = 0 := V3.dot_cross_right _ _
  set a := h ^ 2 / GM / b ^ 2 with had
  set n := h / (a ^ 2 * b) with hnd
  have ha : 0 < a := by positivity
  have hn : 0 < n := by positivity
  have hnb : n * a ^ 2 * b = h := by rw [hnd]; field_simp
  have hG : n ^ 2 * a ^ 3 = GM := by
    have h1 : n ^ 2 * a ^ 3 * (a * b ^ 2) = h ^ 2 := by rw [← hnb]; ring
    have h2 : a * b ^ 2 = h ^ 2 / GM := by rw [had]; field_simp
    rw [h2] at h1
    have : h ^ 2 ≠ 0 := by positivity
    field_simp at h1
    exact h1
  have hp : h ^ 2 / GM = a * b ^ 2 := by rw [had]; field_simp
  have hk : GM / h = n * a / b := by rw [← hG, ← hnb]; field_simp
  have hr : 0 < e - 1 := by linarith
  have hs : 1 < (1 + (e - 1)) ^ 2 - (0:ℝ) ^ 2 := by nlinarith
  have hR0 : cPos (h ^ 2 / GM) e u q 0 = (a * (e - 1)) • u := by
    unfold cPos
    rw [cos_zero, sin_zero, hp, hb2, show a * (e ^ 2 - 1) / (1 + e * 1) = a * (e - 1) by field_simp; ring]
    ext <;> simp
  have hU0 : cVel (GM / h) e u q 0 = (n * a / b * (e + 1)) • q := by
    unfold cVel
    rw [cos_zero, sin_zero, hk]
    ext <;> simp only [V3.add_x, V3.add_y, V3.add_z, V3.smul_x, V3.smul_y, V3.smul_z] <;> ring
  rw [hR0, hU0]
  set R0 := (a * (e - 1)) • u with hR0d
  set V0 := (n * a / b * (e + 1)) • q with hV0d
  have hRR : V3.dot R0 R0 = (a * (e - 1)) ^ 2 := by
    rw [hR0d, V3.dot_smul_left, V3.dot_smul_right, hu]; ring
  have hRV : V3.dot R0 V0 = n * a ^ 2 * 0 := by
    rw [hR0d, hV0d, V3.dot_smul_left, V3.dot_smul_right, uq]; ring
  have hVV : V3.dot V0 V0 = n ^ 2 * a ^ 2 * (2 / (e - 1) + 1) := by
    rw [hV0d, V3.dot_smul_left, V3.dot_smul_right, qq]
    have : n * a / b * (e + 1) * (n * a / b * (e + 1) * 1) = n ^ 2 * a ^ 2 * (e + 1) ^ 2 / b ^ 2 := by field_simp
    rw [this, hb2, show e ^ 2 - 1 = (e - 1) * (e + 1) by ring]
    field_simp
    ring
  have hm := hyper_motion ha hn hr hs hRR hRV hVV hG
  have h0 : hX hr hs 0 = 0 := by have := hX_hK hr hs 0; rwa [hK_zero] at this
  have i1 : hPos n (e - 1) 0 R0 V0 (hX hr hs (n * 0)) = R0 := by rw [mul_zero, h0, hPos]; ext <;> simp
  have i2 : hVel n (e - 1) 0 R0 V0 (hX hr hs (n * 0)) = V0 := by rw [mul_zero, h0, hVel]; ext <;> simp
  refine ⟨⟨_, _, hm, i1, i2⟩, fun R U m1 m2 m3 => ?_⟩
  have huni := twoBody_unique hm m1 (fun t => by
    rw [hPos_norm ha hn hr hs hRR hRV hVV]; exact mul_pos ha (hR_pos hr hs _)) 0 (i1.trans m2.symm) (i2.trans m3.symm)
  refine ⟨fun t => hK (e - 1) 0 (hypAnomaly e t) / n, ?_, ?_, ?_, ?_⟩
  · simp only [hypAnomaly_zero, hK_zero, zero_div]
  · intro x hx y hy hxy
    exact div_lt_div_of_pos_right (hK_strictMono hr hs (hypAnomaly_mono he hx hy hxy)) hn
  · intro s
    obtain ⟨t, ht, hx⟩ := hypAnomaly_surj he (hX hr hs (n * s))
    refine ⟨t, ht, ?_⟩
    simp only [hx, hK_hX]
    field_simp
  · intro t ht
    obtain ⟨d1, d2, d3⟩ := hypAnomaly_trig he ht rfl
    rw [← hbd] at d3
    set x := hypAnomaly e t with hx
    have hx' : hX hr hs (n * (hK (e - 1) 0 x / n)) = x := by
      rw [mul_div_cancel₀ _ hn.ne', hX_hK]
    obtain ⟨g1, g2⟩ := huni (hK (e - 1) 0 x / n)
    simp only [hx'] at g1 g2
    simp only []
    rw [← g1, ← g2]
    have hD : hR (e - 1) 0 x = e * cosh x - 1 := by unfold hR; ring
    have hden : 1 + e * cos t = b ^ 2 / (e * cosh x - 1) := by rw [d2, hb2]; field_simp; ring
    have hb2' : e ^ 2 = b ^ 2 + 1 := by linarith
    constructor
    · unfold hPos cPos
      rw [hp, hden, d2, d3, hR0d, hV0d]
      have c1 : (1 - (cosh x - 1) / (e - 1)) * (a * (e - 1)) = a * (e - cosh x) := by field_simp; ring
      have c2 : (1 / n * ((e - 1) * sinh x + 0 * (cosh x - 1))) * (n * a / b * (e + 1)) = a * b * sinh x := by
        field_simp
        linear_combination sinh x * (-hb2)
      have c3 : a * b ^ 2 / (b ^ 2 / (e * cosh x - 1)) = a * (e * cosh x - 1) := by field_simp
      rw [V3.smul_smul, V3.smul_smul, c1, c2, c3]
      ext <;> simp only [V3.add_x, V3.add_y, V3.add_z, V3.smul_x, V3.smul_y, V3.smul_z] <;> field_simp
    · unfold hVel cVel
      rw [hk, hD, d2, d3, hR0d, hV0d]
      have c1 : (-(n / (e - 1)) * (sinh x / (e * cosh x - 1))) * (a * (e - 1)) = -(n * a * sinh x / (e * cosh x - 1)) := by
        field_simp
      have c2 : (1 - (cosh x - 1) / (e * cosh x - 1)) * (n * a / b * (e + 1)) = n * a * b * cosh x / (e * cosh x - 1) := by
        rw [one_sub_div d1.ne', show e * cosh x - 1 - (cosh x - 1) = (e - 1) * cosh x by ring, div_mul_eq_mul_div]
        congr 1
        field_simp
        linear_combination -hb2
      have c3 : e + (e - cosh x) / (e * cosh x - 1) = b ^ 2 * cosh x / (e * cosh x - 1) := by
        rw [hb2]; field_simp; ring
      rw [V3.smul_smul, V3.smul_smul, c1, c2, c3]
      ext <;> simp only [V3.add_x, V3.add_y, V3.add_z, V3.smul_x, V3.smul_y, V3.smul_z] <;> field_simp

end AMAT
