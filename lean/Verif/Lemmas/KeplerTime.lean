import Verif.Lemmas.Orbiter
import Mathlib.Analysis.SpecialFunctions.Trigonometric.Arctan
import Mathlib.Analysis.SpecialFunctions.Trigonometric.ArctanDeriv
import Mathlib.Analysis.Calculus.Deriv.Inverse
import Mathlib.Analysis.Calculus.Deriv.MeanValue
import Mathlib.Topology.Order.MonotoneContinuity

/-
Helper lemmas: Kepler's equation, the eccentric anomaly as a function of time, and the motion it describes.
-/

noncomputable section

namespace AMAT

open Real

/-- Left side of Kepler's equation. -/
def kep (e E : ℝ) : ℝ := E - e * sin E

theorem kep_den {e : ℝ} (h0 : -1 < e) (h1 : e < 1) (E : ℝ) : 0 < 1 - e * cos E := by
  have := cos_le_one E; have := neg_one_le_cos E
  rcases le_or_gt 0 e with h | h <;> nlinarith

theorem kep_deriv (e E : ℝ) : HasDerivAt (kep e) (1 - e * cos E) E :=
  (hasDerivAt_id E).fun_sub ((hasDerivAt_sin E).const_mul e)

theorem kep_strictMono {e : ℝ} (h0 : -1 < e) (h1 : e < 1) : StrictMono (kep e) := by
  apply strictMono_of_deriv_pos
  intro x
  rw [(kep_deriv e x).deriv]
  exact kep_den h0 h1 x

theorem kep_cont (e : ℝ) : Continuous (kep e) := by unfold kep; fun_prop

theorem kep_surj {e : ℝ} (h0 : -1 < e) (h1 : e < 1) : Function.Surjective (kep e) := by
  intro M
  have hs : ∀ x, |e * sin x| ≤ 1 := fun x => by
    rw [abs_mul]
    have : |e| ≤ 1 := abs_le.mpr ⟨h0.le, h1.le⟩
    exact mul_le_one₀ this (abs_nonneg _) (abs_sin_le_one x)
  have hl : kep e (M - 1) ≤ M := by unfold kep; linarith [(abs_le.mp (hs (M - 1))).1]
  have hr : M ≤ kep e (M + 1) := by unfold kep; linarith [(abs_le.mp (hs (M + 1))).2]
  obtain ⟨x, -, hx⟩ := intermediate_value_Icc (by linarith : M - 1 ≤ M + 1) (kep_cont e).continuousOn ⟨hl, hr⟩
  exact ⟨x, hx⟩

/-- The eccentric anomaly at a mean anomaly. -/
def ecc {e : ℝ} (h0 : -1 < e) (h1 : e < 1) : ℝ → ℝ :=
  (StrictMono.orderIsoOfSurjective (kep e) (kep_strictMono h0 h1) (kep_surj h0 h1)).symm

section
variable {e : ℝ} (h0 : -1 < e) (h1 : e < 1)

theorem kep_ecc (M : ℝ) : kep e (ecc h0 h1 M) = M :=
  (StrictMono.orderIsoOfSurjective (kep e) (kep_strictMono h0 h1) (kep_surj h0 h1)).apply_symm_apply M

theorem ecc_kep (E : ℝ) : ecc h0 h1 (kep e E) = E :=
  (kep_strictMono h0 h1).injective (kep_ecc h0 h1 _)

theorem ecc_cont : Continuous (ecc h0 h1) :=
  (StrictMono.orderIsoOfSurjective (kep e) (kep_strictMono h0 h1) (kep_surj h0 h1)).symm.continuous

theorem ecc_deriv (M : ℝ) : HasDerivAt (ecc h0 h1) (1 - e * cos (ecc h0 h1 M))⁻¹ M :=
  HasDerivAt.of_local_left_inverse (ecc_cont h0 h1).continuousAt (kep_deriv e _) (kep_den h0 h1 _).ne'
    (Filter.Eventually.of_forall fun x => kep_ecc h0 h1 x)

theorem ecc_zero : ecc h0 h1 0 = 0 := by
  have := ecc_kep h0 h1 0
  simpa [kep] using this

theorem ecc_period (M : ℝ) : ecc h0 h1 (M + 2 * π) = ecc h0 h1 M + 2 * π := by
  apply (kep_strictMono h0 h1).injective
  rw [kep_ecc]
  unfold kep
  rw [sin_add_two_pi]
  have := kep_ecc h0 h1 M
  unfold kep at this
  linarith
end

/-- Position at an eccentric anomaly in the frame `(u, q)`. -/
def kPos (a e : ℝ) (u q : V3) (E : ℝ) : V3 := (a * (cos E - e)) • u + (a * sqrt (1 - e ^ 2) * sin E) • q

/-- Velocity at an eccentric anomaly, mean motion `n`. -/
def kVel (n a e : ℝ) (u q : V3) (E : ℝ) : V3 :=
  (n * a * (-sin E / (1 - e * cos E))) • u + (n * a * sqrt (1 - e ^ 2) * (cos E / (1 - e * cos E))) • q

theorem kPos_norm {a e : ℝ} {u q : V3} (ha : 0 < a) (h0 : -1 < e) (h1 : e < 1) (hu : V3.dot u u = 1) (hq : V3.dot q q = 1)
    (huq : V3.dot u q = 0) (E : ℝ) : V3.norm (kPos a e u q E) = a * (1 - e * cos E) := by
  have hd := kep_den h0 h1 E
  apply V3.norm_eq_of_sq (by positivity)
  unfold kPos
  have key : ∀ x y : ℝ, V3.dot (x • u + y • q) (x • u + y • q) = x ^ 2 * V3.dot u u + 2 * x * y * V3.dot u q + y ^ 2 * V3.dot q q := by
    intro x y
    simp only [V3.dot, V3.add_x, V3.add_y, V3.add_z, V3.smul_x, V3.smul_y, V3.smul_z]; ring
  have hs : sqrt (1 - e ^ 2) ^ 2 = 1 - e ^ 2 := sq_sqrt (by nlinarith)
  have sc := sin_sq_add_cos_sq E
  rw [key, hu, hq, huq, mul_pow, mul_pow, mul_pow, hs]
  linear_combination (a ^ 2 * (1 - e ^ 2)) * sc

theorem kVel_x_deriv {e : ℝ} (h0 : -1 < e) (h1 : e < 1) (E : ℝ) :
    HasDerivAt (fun s => -sin s / (1 - e * cos s)) ((e - cos E) / (1 - e * cos E) ^ 2) E := by
  have hd := (kep_den h0 h1 E).ne'
  have h2 : HasDerivAt (fun s => 1 - e * cos s) (-(e * -sin E)) E := ((hasDerivAt_cos E).const_mul e).const_sub 1
  refine (((hasDerivAt_sin E).fun_neg).fun_div h2 hd).congr_deriv ?_
  have sc := sin_sq_add_cos_sq E
  congr 1
  linear_combination e * sc

theorem kVel_y_deriv {e : ℝ} (h0 : -1 < e) (h1 : e < 1) (E : ℝ) :
    HasDerivAt (fun s => cos s / (1 - e * cos s)) (-sin E / (1 - e * cos E) ^ 2) E := by
  have hd := (kep_den h0 h1 E).ne'
  have h2 : HasDerivAt (fun s => 1 - e * cos s) (-(e * -sin E)) E := ((hasDerivAt_cos E).const_mul e).const_sub 1
  refine ((hasDerivAt_cos E).fun_div h2 hd).congr_deriv ?_
  congr 1
  ring

/-- The Keplerian motion is a two-body motion in time. -/
theorem kepler_motion {GM a e n : ℝ} {u q : V3} (ha : 0 < a) (h0 : -1 < e) (h1 : e < 1) (hu : V3.dot u u = 1)
    (hq : V3.dot q q = 1) (huq : V3.dot u q = 0) (hn : n ^ 2 * a ^ 3 = GM) :
    Spec.TwoBodyMotion GM (fun t => kPos a e u q (ecc h0 h1 (n * t))) (fun t => kVel n a e u q (ecc h0 h1 (n * t))) := by
  intro t
  set E := ecc h0 h1 (n * t) with hE
  have hd := kep_den h0 h1 E
  have hEd : HasDerivAt (fun s => ecc h0 h1 (n * s)) (n / (1 - e * cos E)) t := by
    have h3 : HasDerivAt (fun s => n * s) n t := by simpa using (hasDerivAt_id t).const_mul n
    refine ((ecc_deriv h0 h1 (n * t)).comp t h3).congr_deriv ?_
    rw [← hE]; field_simp
  have hc : HasDerivAt (fun s => cos (ecc h0 h1 (n * s))) (-sin E * (n / (1 - e * cos E))) t :=
    HasDerivAt.cos hEd
  have hs : HasDerivAt (fun s => sin (ecc h0 h1 (n * s))) (cos E * (n / (1 - e * cos E))) t :=
    HasDerivAt.sin hEd
  have hX : HasDerivAt (fun s => -sin (ecc h0 h1 (n * s)) / (1 - e * cos (ecc h0 h1 (n * s))))
      ((e - cos E) / (1 - e * cos E) ^ 2 * (n / (1 - e * cos E))) t := HasDerivAt.comp_of_eq t (kVel_x_deriv h0 h1 E) hEd hE
  have hY : HasDerivAt (fun s => cos (ecc h0 h1 (n * s)) / (1 - e * cos (ecc h0 h1 (n * s))))
      (-sin E / (1 - e * cos E) ^ 2 * (n / (1 - e * cos E))) t := HasDerivAt.comp_of_eq t (kVel_y_deriv h0 h1 E) hEd hE
  have hP : ∀ x y : ℝ, HasDerivAt (fun s => a * (cos (ecc h0 h1 (n * s)) - e) * x +
      a * sqrt (1 - e ^ 2) * sin (ecc h0 h1 (n * s)) * y)
      (n * a * (-sin E / (1 - e * cos E)) * x + n * a * sqrt (1 - e ^ 2) * (cos E / (1 - e * cos E)) * y) t := by
    intro x y
    refine ((((hc.sub_const e).const_mul a).mul_const x).fun_add ((hs.const_mul (a * sqrt (1 - e ^ 2))).mul_const y)).congr_deriv ?_
    ring
  have hV : ∀ x y : ℝ, HasDerivAt (fun s => n * a * (-sin (ecc h0 h1 (n * s)) / (1 - e * cos (ecc h0 h1 (n * s)))) * x +
      n * a * sqrt (1 - e ^ 2) * (cos (ecc h0 h1 (n * s)) / (1 - e * cos (ecc h0 h1 (n * s)))) * y)
      (-GM / (a * (1 - e * cos E)) ^ 3 * (a * (cos E - e) * x + a * sqrt (1 - e ^ 2) * sin E * y)) t := by
    intro x y
    refine (((hX.const_mul (n * a)).mul_const x).fun_add ((hY.const_mul (n * a * sqrt (1 - e ^ 2))).mul_const y)).congr_deriv ?_
    rw [← hn]
    field_simp
    ring
  refine ⟨⟨?_, ?_, ?_⟩, ?_⟩
  · simpa only [kPos, kVel, V3.add_x, V3.smul_x] using hP u.x q.x
  · simpa only [kPos, kVel, V3.add_y, V3.smul_y] using hP u.y q.y
  · simpa only [kPos, kVel, V3.add_z, V3.smul_z] using hP u.z q.z
  · rw [kPos_norm ha h0 h1 hu hq huq]
    refine ⟨?_, ?_, ?_⟩
    · simpa only [kPos, kVel, V3.add_x, V3.smul_x] using hV u.x q.x
    · simpa only [kPos, kVel, V3.add_y, V3.smul_y] using hV u.y q.y
    · simpa only [kPos, kVel, V3.add_z, V3.smul_z] using hV u.z q.z

/-- The true anomaly computed by `compute_theta_star`. -/
theorem thetaStar_spec {e : ℝ} (h0 : -1 < e) (h1 : e < 1) (E : ℝ) :
    ∃ th, PropOrbiter.thetaStar e E = some th ∧ cos th = (cos E - e) / (1 - e * cos E) ∧
      sin th = sqrt (1 - e ^ 2) * sin E / (1 - e * cos E) := by
  have hd := kep_den h0 h1 E
  have hm : 0 < 1 - e := by linarith
  have hp : 0 < 1 + e := by linarith
  have hq : 0 < (1 + e) / (1 - e) := by positivity
  have hs := sqrt_pos.mpr hq
  have hs2 := sq_sqrt hq.le
  set s := sqrt ((1 + e) / (1 - e)) with hsd
  have hsE : s * (1 - e) = sqrt (1 - e ^ 2) := by
    rw [← sqrt_sq (by positivity : 0 ≤ s * (1 - e))]
    congr 1
    rw [mul_pow, hs2]; field_simp; ring
  have hval : PropOrbiter.thetaStar e E =
      if cos (E / 2) = 0 then some π else some (2 * arctan (s * (sin (E / 2) / cos (E / 2)))) := by
    unfold PropOrbiter.thetaStar
    rw [npDiv_some hm.ne']
    simp only [bind, Option.bind, pure]
    rw [npSqrt_some hq.le]
    simp only []
    rw [← hsd, if_neg hs.ne']
  have cE : cos E = 2 * cos (E / 2) ^ 2 - 1 := by rw [← cos_two_mul]; ring_nf
  have sE : sin E = 2 * sin (E / 2) * cos (E / 2) := by rw [← sin_two_mul]; ring_nf
  have sc := sin_sq_add_cos_sq (E / 2)
  by_cases hc : cos (E / 2) = 0
  · refine ⟨π, by rw [hval, if_pos hc], ?_, ?_⟩
    · rw [cE, hc, cos_pi, eq_div_iff (by rw [cE, hc] at hd; exact hd.ne')]; ring
    · rw [sE, hc, sin_pi]; simp
  · refine ⟨_, by rw [hval, if_neg hc], ?_, ?_⟩
    · rw [cos_two_mul, cos_sq_arctan, mul_pow, hs2, div_pow, cE]
      rw [cE] at hd
      have hS : sin (E / 2) ^ 2 = 1 - cos (E / 2) ^ 2 := by linarith
      rw [hS]
      generalize cos (E / 2) = c at *
      have k1 : 1 + (1 + e) / (1 - e) * ((1 - c ^ 2) / c ^ 2) = (1 - e * (2 * c ^ 2 - 1)) / ((1 - e) * c ^ 2) := by
        field_simp; ring
      rw [k1]
      field_simp
      ring
    · rw [sin_two_mul, sin_arctan, cos_arctan]
      have hpos : 0 < 1 + (s * (sin (E / 2) / cos (E / 2))) ^ 2 := by positivity
      have e1 : ∀ x : ℝ, 2 * (x / sqrt (1 + x ^ 2)) * (1 / sqrt (1 + x ^ 2)) = 2 * x / (1 + x ^ 2) := by
        intro x
        have : 0 < 1 + x ^ 2 := by positivity
        have h2 : sqrt (1 + x ^ 2) * sqrt (1 + x ^ 2) = 1 + x ^ 2 := mul_self_sqrt this.le
        have h3 : 0 < sqrt (1 + x ^ 2) := sqrt_pos.mpr this
        rw [eq_div_iff this.ne']; nth_rw 3 [← h2]; field_simp
      rw [e1, ← hsE, mul_pow, hs2, div_pow, cE, sE]
      rw [cE] at hd
      have hS : sin (E / 2) ^ 2 = 1 - cos (E / 2) ^ 2 := by linarith
      rw [hS]
      generalize cos (E / 2) = c at *
      have k1 : 1 + (1 + e) / (1 - e) * ((1 - c ^ 2) / c ^ 2) = (1 - e * (2 * c ^ 2 - 1)) / ((1 - e) * c ^ 2) := by
        field_simp; ring
      rw [k1]
      field_simp

/-- The position at the computed true anomaly is the one at the eccentric anomaly. -/
theorem cPos_thetaStar {p a e E th : ℝ} {u q : V3} (h0 : -1 < e) (h1 : e < 1) (hp : p = a * (1 - e ^ 2))
    (hc : cos th = (cos E - e) / (1 - e * cos E)) (hs : sin th = sqrt (1 - e ^ 2) * sin E / (1 - e * cos E)) :
    cPos p e u q th = kPos a e u q E := by
  have hd := kep_den h0 h1 E
  have he : 0 < 1 - e ^ 2 := by nlinarith
  have hr : p / (1 + e * cos th) = a * (1 - e * cos E) := by
    have : 1 + e * cos th = (1 - e ^ 2) / (1 - e * cos E) := by rw [hc]; field_simp; ring
    rw [this, hp]; field_simp
  unfold cPos kPos
  rw [hr, hc, hs]
  ext <;> simp only [V3.add_x, V3.add_y, V3.add_z, V3.smul_x, V3.smul_y, V3.smul_z] <;> field_simp

end AMAT
